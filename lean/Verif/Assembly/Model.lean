import Mathlib.Algebra.BigOperators.Group.List.Basic
import Mathlib.Data.List.Perm.Basic

/-!
# Model of gathering block data into global vectors and scattering it back

Models `BlockBase::exportData`, `BlockBase::importData` (/repo/src/core/Peridigm_BlockBase.cpp), the
force assembly loops of /repo/src/core/Peridigm.cpp and `DataManagerSynchronizer::synchronize`
(/repo/src/core/Peridigm_Block.cpp), on all processors together.

A vector on one processor is the list of its elements: global id and value.  The value of an element
is one number for scalar fields and three for vector fields; it is an element of an arbitrary
commutative additive group `V` here, so additions are exact.
-/

namespace Verif.Assembly

variable {V : Type}

/-- One processor's part of an `Epetra_Vector`. -/
abbrev Part (V : Type) := List (Nat × V)

/-- A vector on all processors. -/
abbrev Dist (V : Type) := List (Part V)

/-- A block: the overlap vector of the field in its data manager (`none` if the block does not have
the field, the `hasData` test of src/core/Peridigm_BlockBase.cpp:81 and 101), and the choice its
`Epetra_Import` made: processor `q` exchanges the data of id `g` with processor `pick q g`, which
Trilinos takes from the global owned map. -/
structure BlockField (V : Type) where
  data : Option (Dist V)
  pick : Nat → Nat → Nat

/-- `PutScalar(0.0)`. -/
def zeroOut [Zero V] (t : Dist V) : Dist V := t.map fun part => part.map fun e => (e.1, 0)

/-- `a->Update(1.0, b, 1.0)`: `a := b + a`, entry by entry on the same map. -/
def update [Add V] (a b : Dist V) : Dist V :=
  List.zipWith (fun x y => List.zipWith (fun e f => (e.1, f.2 + e.2)) x y) a b

/-- The elements sent to the global vector: sending processor, global id, value. -/
def sends (d : Dist V) : List (Nat × Nat × V) :=
  d.zipIdx.flatMap fun x => x.1.map fun e => (x.2, e.1, e.2)

/-- Receipt of one element with combine mode `Add`. -/
def receiveAdd [Add V] (pick : Nat → Nat → Nat) (t : Dist V) (s : Nat × Nat × V) : Dist V :=
  t.mapIdx fun p part =>
    if p = pick s.1 s.2.1 then part.map fun e => if e.1 = s.2.1 then (e.1, e.2 + s.2.2) else e
    else part

/-- `BlockBase::exportData` with combine mode `Add`, src/core/Peridigm_BlockBase.cpp:99-117. -/
def exportAdd [Add V] (b : BlockField V) (t : Dist V) : Dist V :=
  match b.data with
  | none => t
  | some d => (sends d).foldl (receiveAdd b.pick) t

/-- The value a processor holds for an id. -/
def lookup (t : Dist V) (p g : Nat) : Option V :=
  (t[p]?).bind fun part => part.lookup g

/-- Receipt of one element with combine mode `Insert`: an id the source does not hold keeps its value. -/
def receiveInsert (r : Option V) (e : Nat × V) : Nat × V :=
  match r with
  | some v => (e.1, v)
  | none => e

/-- `BlockBase::importData` with combine mode `Insert`, src/core/Peridigm_BlockBase.cpp:79-97. -/
def importInsert (b : BlockField V) (src : Dist V) : BlockField V :=
  { b with data := b.data.map fun d => d.mapIdx fun q part =>
      part.map fun e => receiveInsert (lookup src (b.pick q e.1) e.1) e }

/-- The gathering loop: src/core/Peridigm.cpp:1541-1546 (force), and lines 224-228 and 235-239 of
src/core/Peridigm_Block.cpp.  `force` and `scratch` are vectors on the global owned map; the loop
starts from `acc`. -/
def gatherLoop [Zero V] [Add V] (scratch : Dist V) : List (BlockField V) → Dist V → Dist V
  | [], acc => acc
  | b :: bs, acc => gatherLoop scratch bs (update acc (exportAdd b (zeroOut scratch)))

/-- Gathering into a zeroed vector on the map of `global`. -/
def gather [Zero V] [Add V] (global : Dist V) (blocks : List (BlockField V)) : Dist V :=
  gatherLoop global blocks (zeroOut global)

/-- `DataManagerSynchronizer::synchronize` for one field, src/core/Peridigm_Block.cpp:222-243; `global`
is the vector `scalarSum` or `vectorSum`, of which only the map matters. -/
def synchronize [Zero V] [Add V] (global : Dist V) (blocks : List (BlockField V)) :
    List (BlockField V) :=
  blocks.map fun b => importInsert b (gather global blocks)

end Verif.Assembly
