import Verif.Touch.Model

/-!
# Model of the contact interactions and of the construction of the contact manager

`ContactManager::createContactInteractionsList` and the choice of contact models in `ContactManager::initialize`
(/repo/src/core/Peridigm_ContactManager.cpp).  Strings are compared as the lists of their characters, which for ASCII is the
order of `std::string`.
-/

noncomputable section

namespace Verif.Touch

open Verif

/-- The "Interactions" section: the contact models of "General Contact" and "Self Contact" if they are there, and the
other entries (first block, second block, contact model).
Models src/core/Peridigm_ContactManager.cpp:156-165 and 191-197. -/
structure Interactions where
  general : Option String
  self : Option String
  others : List (String × String × String)

/-- `std::tuple<int, int, string>`. -/
abbrev Entry := Nat × Nat × String

/-- The order of `std::set` on the tuples.
Models src/core/Peridigm_ContactManager.cpp:155. -/
def before (a b : Entry) : Bool :=
  a.1 < b.1 || (a.1 = b.1 && (a.2.1 < b.2.1 || (a.2.1 = b.2.1 && a.2.2 < b.2.2)))

/-- `std::set::insert`.
Models src/core/Peridigm_ContactManager.cpp:180, 184 and 199. -/
def insertEntry (e : Entry) : List Entry → List Entry
  | [] => [e]
  | a :: l => if before e a then e :: a :: l else if e = a then a :: l else a :: insertEntry e l

/-- The entries for one pair of positions in the list of block names.
Models src/core/Peridigm_ContactManager.cpp:170-186. -/
def pairEntries (I : Interactions) (i j : Nat) (a b : Nat) : List Entry :=
  if i = j then
    match I.self with
    | some m => [(min a b, max a b, m)]
    | none => []
  else
    match I.general with
    | some m => [(min a b, max a b, m)]
    | none => []

/-- General and self contact: the double loop over the blocks of the discretization, with ids `ids`.
Models src/core/Peridigm_ContactManager.cpp:166-188. -/
def generalEntries (I : Interactions) (ids : List Nat) : List Entry :=
  ids.zipIdx.flatMap fun x => ids.zipIdx.flatMap fun y => pairEntries I x.2 y.2 x.1 y.1

/-- The interactions that are defined one by one; `idOf` is `blockNameToBlockId`, which throws for names it does not know.
Models src/core/Peridigm_ContactManager.cpp:190-201. -/
def ownEntries (idOf : String → Option Nat) : List (String × String × String) → Outcome (List Entry)
  | [] => .ok []
  | x :: xs =>
    match idOf x.1, idOf x.2.1 with
    | some a, some b => do
      let rest ← ownEntries idOf xs
      .ok ((a, b, x.2.2) :: rest)
    | _, _ => .fail .runtimeError

/-- The loop that keeps the last tuple of each pair.
Models src/core/Peridigm_ContactManager.cpp:204-216. -/
def keepLast : List Entry → List Entry
  | [] => []
  | [e] => [e]
  | e :: f :: l => if e.1 = f.1 ∧ e.2.1 = f.2.1 then keepLast (f :: l) else e :: keepLast (f :: l)

/-- `createContactInteractionsList`; with no interaction at all the iterator `end()` is incremented.
Models src/core/Peridigm_ContactManager.cpp:152-226. -/
def interactionList (I : Interactions) (ids : List Nat) (idOf : String → Option Nat) : Outcome (List Entry) := do
  let own ← ownEntries idOf I.others
  match (generalEntries I ids ++ own).foldl (fun s e => insertEntry e s) [] with
  | [] => .ub
  | s => .ok (keepLast s)

/-- The contact manager's construction and initialisation: the interactions (which are only printed) and the contact
model of every contact block, given by id and horizon.  `models` is the "Models" section with its names.
Models src/core/Peridigm_ContactManager.cpp:62-150 and 236-255. -/
def configure (compile : String → Option Body) (I : Interactions) (ids : List Nat) (idOf : String → Option Nat)
    (models : List (String × (String → Option Value))) (blocks : List (Nat × Option ℝ)) :
    Outcome (List Entry × List (Nat × Model)) := do
  let printed ← interactionList I ids idOf
  let ms ← Redist.allOk (fun (b : Nat × Option ℝ) => do
    let m ← modelFor compile (models.map Prod.snd) b.2
    .ok (b.1, m)) blocks
  .ok (printed, ms)

end Verif.Touch
