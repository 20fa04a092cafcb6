import Verif.Common.Outcome
import Mathlib.Data.Prod.Lex
import Mathlib.Data.List.Sort

/-!
# Model of the contact interactions

`ContactManager::createContactInteractionsList` and the choice of contact models in `ContactManager::initialize`,
/repo/src/core/Peridigm_ContactManager.cpp:153-253.  Names of contact models are elements of a linearly ordered
type (for `std::string` the order is the lexicographic one); block names are replaced by their ids.
-/

namespace Verif.Contact

open Verif

variable {ν : Type} [LinearOrder ν]

/-- `std::tuple<int, int, string>` with its lexicographic order, Peridigm_ContactManager.cpp:156. -/
abbrev Tuple (ν : Type) := Int ×ₗ (Int ×ₗ ν)

/-- A tuple from its three entries. -/
def tuple (a b : Int) (m : ν) : Tuple ν := toLex (a, toLex (b, m))

/-- The first block of a tuple. -/
def Tuple.first (t : Tuple ν) : Int := (ofLex t).1
/-- The second block of a tuple. -/
def Tuple.second (t : Tuple ν) : Int := (ofLex (ofLex t).2).1
/-- The contact model of a tuple. -/
def Tuple.model (t : Tuple ν) : ν := (ofLex (ofLex t).2).2

/-- The "Interactions" section of the input with the block names resolved: the model of "General Contact" and of
"Self Contact" if present, and the individual definitions in their order,
Peridigm_ContactManager.cpp:157-166 and 191-200. -/
structure Input (ν : Type) where
  general : Option ν
  self : Option ν
  definitions : List (Int × Int × ν)

/-- `std::set::insert` on the sorted elements of the set. -/
def setInsert (s : List (Tuple ν)) (t : Tuple ν) : List (Tuple ν) :=
  if t ∈ s then s else s.orderedInsert (· ≤ ·) t

/-- One of the two guarded insertions of Peridigm_ContactManager.cpp:178-185. -/
def guarded (o : Option ν) (p : Bool) (a b : Int) : List (Tuple ν) :=
  match o with
  | some m => if p then [tuple a b m] else []
  | none => []

/-- The insertions for one pair of positions in the list of blocks, Peridigm_ContactManager.cpp:171-185. -/
def pairTuples (inp : Input ν) (x y : Nat × Int) : List (Tuple ν) :=
  let a := if x.2 > y.2 then y.2 else x.2
  let b := if x.2 > y.2 then x.2 else y.2
  guarded inp.self (x.1 = y.1) a b ++ guarded inp.general (x.1 ≠ y.1) a b

/-- The insertions for general and self contact, Peridigm_ContactManager.cpp:167-188; `blocks` are the ids of the
blocks of the discretization. -/
def generalTuples (inp : Input ν) (blocks : List Int) : List (Tuple ν) :=
  let indexed := blocks.mapIdx fun i b => (i, b)
  indexed.flatMap fun x => indexed.flatMap fun y => pairTuples inp x y

/-- The insertions for the individual definitions, Peridigm_ContactManager.cpp:191-201. -/
def individualTuples (inp : Input ν) : List (Tuple ν) :=
  inp.definitions.map fun d => tuple d.1 d.2.1 d.2.2

/-- `contactInteractionSet`, Peridigm_ContactManager.cpp:156-201, as the list of its elements in order. -/
def interactionSet (inp : Input ν) (blocks : List Int) : List (Tuple ν) :=
  (generalTuples inp blocks ++ individualTuples inp).foldl setInsert []

/-- The loop that removes duplicates, Peridigm_ContactManager.cpp:207-216: an element is dropped if the next one
has the same blocks. -/
def dropDuplicates : List (Tuple ν) → List (Tuple ν)
  | [] => []
  | [t] => [t]
  | t :: u :: rest =>
    if t.first = u.first ∧ t.second = u.second then dropDuplicates (u :: rest)
    else t :: dropDuplicates (u :: rest)

/-- `ContactManager::createContactInteractionsList`, Peridigm_ContactManager.cpp:153-216.  Incrementing the
iterator of an empty set (line 206) is undefined. -/
def interactions (inp : Input ν) (blocks : List Int) : Outcome (List (Tuple ν)) :=
  match interactionSet inp blocks with
  | [] => .ub
  | s => .ok (dropDuplicates s)

/-- The contact model `ContactManager::initialize` gives to a block, Peridigm_ContactManager.cpp:236-254: the first
model of the "Models" section, whatever the block and the interactions.  The iterator of an empty section is
dereferenced (line 247). -/
def blockModel (models : List ν) (_interactions : List (Tuple ν)) (_block : Int) : Outcome ν :=
  match models with
  | [] => .ub
  | m :: _ => .ok m

/-- The model with which `ContactManager::evaluateContactForce` evaluates the force on a point of block `a` from a
contact neighbor of block `b`, Peridigm_ContactManager.cpp:868-886: that of the block of the point. -/
def pairModel (models : List ν) (ints : List (Tuple ν)) (a _b : Int) : Outcome ν := blockModel models ints a

end Verif.Contact
