import Verif.Outputs.GlobalModel
import Verif.Tangent.Spec

/-! Specification vocabulary for momentum, energies and the critical time step. -/

noncomputable section

namespace Verif.Outputs

open Verif Verif.Neigh Verif.Mech Verif.Tangent

/-- The sum of a quantity over all points of a block on all processors. -/
def sumBlock {M : Type} [AddCommMonoid M] (f : State → Nat → M) (b : List State) : M :=
  (b.map fun s => ((List.range s.owned).map (f s)).sum).sum

/-- The sum of a quantity over all points of all blocks on all processors. -/
def sumPoints {M : Type} [AddCommMonoid M] (f : State → Nat → M) (run : List (List State)) : M :=
  (run.map (sumBlock f)).sum

/-- Mass of a point. -/
def State.mass (s : State) (i : Nat) : ℝ := s.density * s.vol i

/-- Momentum of a point. -/
def momentum (s : State) (i : Nat) : V3 := s.mass i • s.v i

/-- Moment of momentum of a point about the origin. -/
def moment (s : State) (i : Nat) : V3 := s.mass i • crossProduct (s.y i) (s.v i)

/-- The state has the neighborhoods `nbs`, and points with a weighted volume. -/
def State.HasNeighbors (s : State) (nbs : List (List Nat)) : Prop :=
  s.owned = nbs.length ∧ s.list = encode nbs ∧ ∀ i < nbs.length, s.w i ≠ 0

/-! ### Critical time step -/

/-- A block of the whole mesh, by global id, with the parts the processors hold. -/
structure MeshBlock where
  density : ℝ
  bulk : ℝ
  horizon : V3 → ℝ
  vol : Nat → ℝ
  x : Nat → V3
  parts : List Part

/-- What one processor holds of it. -/
def MeshBlock.piece (B : MeshBlock) (P : Part) : Mesh :=
  { owned := P.nbs.length, list := encode P.nbs, density := B.density, bulk := B.bulk, horizon := B.horizon,
    vol := fun i => B.vol (P.overlap.getD i 0), x := fun i => B.x (P.overlap.getD i 0) }

/-- The block as the code sees it. -/
def MeshBlock.pieces (B : MeshBlock) : List Mesh := B.parts.map B.piece

/-- Reasonable data: positive constants, horizons and volumes, bonded points at different positions, and
at least one processor. -/
structure MeshBlock.Regular (B : MeshBlock) : Prop where
  density : 0 < B.density
  bulk : 0 < B.bulk
  horizon : ∀ x, 0 < B.horizon x
  vol : ∀ p, 0 < B.vol p
  parts : B.parts ≠ []
  valid : ∀ P ∈ B.parts, P.Valid
  distinct : ∀ h ∈ allHoods B.parts, ∀ p ns, h = p :: ns → ∀ j ∈ ns, B.x p ≠ B.x j

/-- Silling and Askari's estimate of the stable time step for point `p` with neighbors `ns`. -/
def MeshBlock.estimate (B : MeshBlock) (p : Nat) (ns : List Nat) : ℝ :=
  Real.sqrt (2 * B.density / (ns.map fun j =>
    B.vol j * (18 * B.bulk / (Real.pi * B.horizon (B.x p) ^ 4)) / len (B.x p - B.x j)).sum)

/-- The estimates for all points that have neighbors. -/
def MeshBlock.Estimates (B : MeshBlock) : Set ℝ :=
  {t | ∃ p ns, ns ≠ [] ∧ p :: ns ∈ allHoods B.parts ∧ t = B.estimate p ns}

end Verif.Outputs
