import Verif.Outputs.Model

/-! Specification vocabulary for the global outputs. -/

noncomputable section

namespace Verif.Outputs

open Verif Verif.Mech
open scoped Classical

/-- On a processor blocks are identified by their names and by their ids, no id is -1, and there is a block
with the name asked for. -/
def Identified (name : String) (blocks : List Piece) : Prop :=
  (∀ b ∈ blocks, b.id ≠ -1) ∧ (∀ b ∈ blocks, ∀ b' ∈ blocks, b.id = b'.id ↔ b.name = b'.name) ∧
    ∃ b ∈ blocks, b.name = name

/-- Component `c` of the variable at all points of the block, over all processors. -/
def valuesOfBlock (name : String) (n c : Nat) (procs : List (List Piece)) : List ℝ :=
  procs.flatMap fun blocks => (blocks.filter fun b => b.name = name).flatMap fun b =>
    (List.range b.gids.length).map fun i => b.data (n * i + c)

/-- Component `c` of the variable at all owned points that are in the processor's node set. -/
def valuesOfNodeSet (n c : Nat) (procs : List (List Nat × List Piece)) : List ℝ :=
  procs.flatMap fun p => p.2.flatMap fun b =>
    ((List.range b.gids.length).filter fun i => ∃ g ∈ p.1, b.gids[i]? = some g).map fun i => b.data (n * i + c)

/-- Names of blocks are distinct on each processor. -/
def DistinctNames (blocks : List Piece) : Prop := (blocks.map Piece.name).Nodup

/-- The points of all blocks on all processors: position and global id. -/
def allPoints (procs : List (List Piece)) : List (V3 × Nat) :=
  procs.flatMap fun blocks => blocks.flatMap fun b => b.gids.zipIdx.map fun g => (b.x g.2, g.1)

/-- No point is owned twice: within a block its id occurs once, and only one piece has it. -/
def OwnedOnce (procs : List (List Piece)) : Prop :=
  (procs.flatMap fun blocks => blocks.flatMap fun b => b.gids).Nodup

/-- `e` is the id of a point nearest to `loc`, the smallest such id. -/
def IsNearest (loc : V3) (pts : List (V3 × Nat)) (e : Nat) : Prop :=
  ∃ p ∈ pts, p.2 = e ∧ ∀ q ∈ pts, len (p.1 - loc) ≤ len (q.1 - loc) ∧
    (len (q.1 - loc) = len (p.1 - loc) → e ≤ q.2)

/-- More than one point is at minimal distance. -/
def Tied (loc : V3) (pts : List (V3 × Nat)) : Prop :=
  ∃ p ∈ pts, ∃ q ∈ pts, p.2 ≠ q.2 ∧ ∀ r ∈ pts, len (p.1 - loc) ≤ len (r.1 - loc) ∧
    len (q.1 - loc) ≤ len (r.1 - loc)

/-! The code compares squares of distances. -/

theorem distSq_eq (x loc : V3) : len (x - loc) = Real.sqrt (distSq x loc) := by
  simp only [len, distSq, Pi.sub_apply]

theorem distSq_nonneg (x loc : V3) : 0 ≤ distSq x loc :=
  add_nonneg (add_nonneg (mul_self_nonneg _) (mul_self_nonneg _)) (mul_self_nonneg _)

theorem len_le_iff (x y loc : V3) : len (x - loc) ≤ len (y - loc) ↔ distSq x loc ≤ distSq y loc := by
  rw [distSq_eq, distSq_eq, Real.sqrt_le_sqrt_iff (distSq_nonneg _ _)]

theorem len_eq_iff (x y loc : V3) : len (x - loc) = len (y - loc) ↔ distSq x loc = distSq y loc := by
  rw [distSq_eq, distSq_eq, Real.sqrt_inj (distSq_nonneg _ _) (distSq_nonneg _ _)]

theorem isNearest_iff {loc : V3} {pts : List (V3 × Nat)} {e : Nat} : IsNearest loc pts e ↔
    ∃ p ∈ pts, p.2 = e ∧ ∀ q ∈ pts, distSq p.1 loc ≤ distSq q.1 loc ∧
      (distSq q.1 loc = distSq p.1 loc → e ≤ q.2) := by
  simp only [IsNearest, len_le_iff, len_eq_iff]

theorem tied_iff {loc : V3} {pts : List (V3 × Nat)} : Tied loc pts ↔
    ∃ p ∈ pts, ∃ q ∈ pts, p.2 ≠ q.2 ∧ ∀ r ∈ pts, distSq p.1 loc ≤ distSq r.1 loc ∧
      distSq q.1 loc ≤ distSq r.1 loc := by
  simp only [Tied, len_le_iff]

end Verif.Outputs
