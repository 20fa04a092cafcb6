import Verif.Mech.Model

/-!
# Model of the compute classes that reduce point data to global values

Models Block_Data, Node_Set_Data and Nearest_Point_Data of /repo/src/compute.

Simplifications: real arithmetic (`DBL_MAX` and `DBL_MIN` are the exact values of the IEEE 754 constants);
the arrays of a block are functions from positions, since the loops stay below the number of owned
points; the field `Element_Id` holds the ids of the owned map (that is how it is filled); the integers
summed over processors do not overflow.  All processors hold the same sequence of blocks, each with the
points it owns.  The collective operations of Epetra_Comm act on the list of the processors' values.
-/

noncomputable section

namespace Verif.Outputs

open Verif Verif.Mech
open scoped Classical

/-- `DBL_MAX` of IEEE 754 double precision. -/
def dblMax : ℝ := (2 - (1 / 2) ^ 52) * 2 ^ 1023

/-- `DBL_MIN`, the smallest positive normal number of IEEE 754 double precision. -/
def dblMin : ℝ := (1 / 2) ^ 1022

/-- `INT_MAX`. -/
def intMax : Nat := 2147483647

/-- What one processor holds of one block: id and name of the block, the ids of the points it owns
(`getOwnedScalarPointMap`), the reference positions and the variable asked for, by component. -/
structure Piece where
  id : Int
  name : String
  gids : List Nat
  x : Nat → V3
  data : Nat → ℝ

/-! ### Collective operations -/

/-- Values of all processors; stops if one of them does. -/
def collect {α β : Type} (f : α → Outcome β) : List α → Outcome (List β)
  | [] => .ok []
  | a :: as => do
    let b ← f a
    let bs ← collect f as
    .ok (b :: bs)

/-- `MinAll`, e.g. src/compute/Peridigm_Compute_Block_Data.cpp:197.  There is at least one processor. -/
def minAll {α : Type} [LinearOrder α] : List α → Outcome α
  | [] => .ub
  | a :: as => .ok (as.foldl min a)

/-- `MaxAll`, e.g. src/compute/Peridigm_Compute_Block_Data.cpp:199. -/
def maxAll {α : Type} [LinearOrder α] : List α → Outcome α
  | [] => .ub
  | a :: as => .ok (as.foldl max a)

/-- `SumAll`, e.g. src/compute/Peridigm_Compute_Block_Data.cpp:201. -/
def sumAll {α : Type} [AddMonoid α] : List α → Outcome α
  | [] => .ub
  | a :: as => .ok (as.foldl (· + ·) a)

/-! ### Minimum, maximum and sum -/

/-- `m_calculationType`. -/
inductive Calc where
  | minimum
  | maximum
  | sum

/-- Initial value of `localData`, src/compute/Peridigm_Compute_Block_Data.cpp:129-140 and
src/compute/Peridigm_Compute_Node_Set_Data.cpp:146-157. -/
def Calc.start : Calc → ℝ
  | .minimum => dblMax
  | .maximum => dblMin
  | .sum => 0

/-- Treatment of one value, src/compute/Peridigm_Compute_Block_Data.cpp:147-190 and
src/compute/Peridigm_Compute_Node_Set_Data.cpp:167-213; the same for each component. -/
def Calc.step : Calc → ℝ → ℝ → ℝ
  | .minimum, acc, d => if d < acc then d else acc
  | .maximum, acc, d => if d > acc then d else acc
  | .sum, acc, d => acc + d

/-- The collective operation, src/compute/Peridigm_Compute_Block_Data.cpp:195-214 and
src/compute/Peridigm_Compute_Node_Set_Data.cpp:217-236. -/
def Calc.all : Calc → List ℝ → Outcome ℝ
  | .minimum => minAll
  | .maximum => maxAll
  | .sum => sumAll

/-- `Compute_Block_Data::initialize`, src/compute/Peridigm_Compute_Block_Data.cpp:106-119: the id of the
last block with the name, an exception if it is (still) -1. -/
def findBlock (name : String) (blocks : List Piece) : Outcome Int :=
  let id := blocks.foldl (fun id b => if b.name = name then b.id else id) (-1)
  if id = -1 then .fail .runtimeError else .ok id

/-- Component `c` of the variable, which has `n` components, at the local ids `is` of a block. -/
def Piece.at (b : Piece) (n c : Nat) (is : List Nat) : List ℝ := is.map fun i => b.data (n * i + c)

/-- The part of `Compute_Block_Data::compute` before communication, on one processor, for one
component, src/compute/Peridigm_Compute_Block_Data.cpp:127-192. -/
def blockLocal (k : Calc) (n c : Nat) (id : Int) (blocks : List Piece) : ℝ :=
  blocks.foldl (fun acc b =>
    if b.id = id then (b.at n c (List.range b.gids.length)).foldl k.step acc else acc) k.start

/-- `Compute_Block_Data::initialize` and `compute`, component `c` of the `n` components of the output.
Models src/compute/Peridigm_Compute_Block_Data.cpp:106-217. -/
def blockData (k : Calc) (n c : Nat) (name : String) (procs : List (List Piece)) : Outcome ℝ := do
  let locals ← collect (fun blocks => do
    let id ← findBlock name blocks
    .ok (blockLocal k n c id blocks)) procs
  k.all locals

/-- The positions of the owned points of a block that are in the node set,
src/compute/Peridigm_Compute_Node_Set_Data.cpp:128-134. -/
def Piece.inNodeSet (b : Piece) (nodeSet : List Nat) : List Nat :=
  (List.range b.gids.length).filter fun i => ∃ g ∈ nodeSet, b.gids[i]? = some g

/-- Assignment to `m_blockLocalIds[blockName]`. -/
def setIds (nodeSet : List Nat) (ids : String → Option (List Nat)) (b : Piece) : String → Option (List Nat) :=
  Function.update ids b.name (some (b.inNodeSet nodeSet))

/-- `m_blockLocalIds` after `Compute_Node_Set_Data::initialize`, for each name of a block.
Models src/compute/Peridigm_Compute_Node_Set_Data.cpp:124-136. -/
def nodeSetIds (nodeSet : List Nat) (blocks : List Piece) : String → Option (List Nat) :=
  blocks.foldl (setIds nodeSet) fun _ => none

/-- One block of the loop of `Compute_Node_Set_Data::compute`,
src/compute/Peridigm_Compute_Node_Set_Data.cpp:159-214. -/
def nodeSetBlock (k : Calc) (n c : Nat) (ids : String → Option (List Nat)) (acc : ℝ) (b : Piece) :
    Outcome ℝ :=
  match ids b.name with
  | none => .fail .outOfRange
  | some is => .ok ((b.at n c is).foldl k.step acc)

/-- `Compute_Node_Set_Data::initialize` and `compute` for one component of the output; each processor
has the points of the node set that it owns.
Models src/compute/Peridigm_Compute_Node_Set_Data.cpp:124-239. -/
def nodeSetData (k : Calc) (n c : Nat) (procs : List (List Nat × List Piece)) : Outcome ℝ := do
  let locals ← collect (fun p => p.2.foldlM (nodeSetBlock k n c (nodeSetIds p.1 p.2)) k.start) procs
  k.all locals

/-! ### The nearest point -/

/-- `distanceSquared`, src/compute/Peridigm_Compute_Nearest_Point_Data.cpp:119-121. -/
def distSq (x loc : V3) : ℝ :=
  (x 0 - loc 0) * (x 0 - loc 0) + (x 1 - loc 1) * (x 1 - loc 1) + (x 2 - loc 2) * (x 2 - loc 2)

/-- `minDistanceSquared`, `m_elementId`, `foundTies`. -/
structure Nearest where
  dist : ℝ
  id : Nat
  ties : Bool

/-- One pass of the loop over points, src/compute/Peridigm_Compute_Nearest_Point_Data.cpp:118-134. -/
def Nearest.visit (loc : V3) (s : Nearest) (p : V3 × Nat) : Nearest :=
  if distSq p.1 loc ≤ s.dist then
    if distSq p.1 loc < s.dist ∨ p.2 < s.id then ⟨distSq p.1 loc, p.2, decide (distSq p.1 loc = s.dist)⟩
    else ⟨s.dist, s.id, decide (distSq p.1 loc = s.dist)⟩
  else s

/-- The owned points of a block. -/
def Piece.points (b : Piece) : List (V3 × Nat) := b.gids.zipIdx.map fun g => (b.x g.2, g.1)

/-- The local part of the search, src/compute/Peridigm_Compute_Nearest_Point_Data.cpp:102-135. -/
def nearestLocal (loc : V3) (blocks : List Piece) : Nearest :=
  blocks.foldl (fun s b => b.points.foldl (Nearest.visit loc) s) ⟨dblMax, intMax, false⟩

/-- `m_elementId` before the second exchange, src/compute/Peridigm_Compute_Nearest_Point_Data.cpp:141-142. -/
def Nearest.candidate (global : ℝ) (s : Nearest) : Nat := if s.dist = global then s.id else intMax

/-- `foundTies` after the second exchange, src/compute/Peridigm_Compute_Nearest_Point_Data.cpp:149-150. -/
def Nearest.tied (global : ℝ) (id : Nat) (s : Nearest) : Bool :=
  if s.candidate global ≠ intMax ∧ s.candidate global ≠ id then true else s.ties

/-- The id of the last block that has the point, 0 if none does,
src/compute/Peridigm_Compute_Nearest_Point_Data.cpp:153-157. -/
def blockWith (id : Nat) (blocks : List Piece) : Int :=
  blocks.foldl (fun acc b => if id ∈ b.gids then b.id else acc) 0

/-- What `initialize` finds: `m_elementId`, `m_blockId`, and whether the warning about ties is printed. -/
structure Tracked where
  id : Nat
  blockId : Int
  warning : Bool

/-- `Compute_Nearest_Point_Data::initialize`.  The printing of coordinates (lines 170-197) is left out.
Models src/compute/Peridigm_Compute_Nearest_Point_Data.cpp:100-167. -/
def nearestInit (loc : V3) (procs : List (List Piece)) : Outcome Tracked := do
  let global ← minAll (procs.map fun b => (nearestLocal loc b).dist)
  let id ← minAll (procs.map fun b => (nearestLocal loc b).candidate global)
  let blockId ← sumAll (procs.map (blockWith id))
  let ties ← sumAll (procs.map fun b => if (nearestLocal loc b).tied global id then (1 : Int) else 0)
  .ok ⟨id, blockId, decide (ties > 0)⟩

/-- `localData` of `compute` for one component, src/compute/Peridigm_Compute_Nearest_Point_Data.cpp:206-224;
`LID` is the position in the owned map. -/
def nearestLocalValue (n c : Nat) (t : Tracked) (blocks : List Piece) : ℝ :=
  blocks.foldl (fun acc b =>
    if b.id = t.blockId ∧ t.id ∈ b.gids then b.data (n * b.gids.idxOf t.id + c) else acc) 0

/-- `Compute_Nearest_Point_Data::compute`.
Models src/compute/Peridigm_Compute_Nearest_Point_Data.cpp:200-239. -/
def nearestValue (n c : Nat) (t : Tracked) (procs : List (List Piece)) : Outcome ℝ :=
  sumAll (procs.map (nearestLocalValue n c t))

end Verif.Outputs
