import Verif.Explicit.Spec
import Verif.Lps.Spec
import Verif.Body.Spec

/-! Statements of C255 to C257, about what explicit dynamics conserves. -/

noncomputable section

namespace Verif.Conserve

open Verif Verif.Neigh Verif.Mech Verif.Explicit

variable {σ : Type}

/-- The entries of point `l` in a vector with three entries for each point. -/
def at3 (v : Nat → ℝ) (l : Nat) : V3 := fun k => v (l * 3 + k)

/-- Angular momentum about the origin of the points `0, …, N-1` with cell volumes `V`. -/
def angular (P : Params) (V : Nat → ℝ) (N : Nat) (y v : Nat → ℝ) : V3 :=
  ∑ l ∈ Finset.range N, (P.density l * V l) • crossProduct (at3 y l) (at3 v l)

/-- The force densities an evaluation delivers have no moment about the positions for which they were evaluated. -/
def Momentless (eval : Eval σ) (V : Nat → ℝ) (N : Nat) : Prop :=
  ∀ b n w b' f, eval b n w = .ok (b', f) → ∑ l ∈ Finset.range N, V l • crossProduct (at3 (w .y) l) (at3 f l) = 0

/-- The sum over the points `0, …, N-1` of mass times the product of two vectors. -/
def inner (P : Params) (V : Nat → ℝ) (N : Nat) (v w : Nat → ℝ) : ℝ :=
  ∑ l ∈ Finset.range N, P.density l * V l * (at3 v l ⬝ᵥ at3 w l)

/-- The evaluation delivers the forces of the linear LPS material for the current displacements, with the neighborhoods, the weights and
the damage of the beginning. -/
def LinearLps (C : Config) (K mu : ℝ) (S : Lps.Stored) (nbs : List (List Nat)) (ghost : (Nat → ℝ) → Nat → ℝ) (eval : Eval σ) : Prop :=
  ∀ b n w b' f, eval b n w = .ok (b', f) → ∃ theta F,
    Lps.evaluate (Lps.displaced C (at3 (w .u))) .cells K mu S nbs.length (encode nbs) ghost = .ok (theta, F) ∧
    ∀ l < nbs.length, at3 f l = F l

/-- Kinetic energy, stored energy (half the work of the internal forces on the way back), and the work of the accelerations within a
step. -/
def shadowEnergy (P : Params) (V : Nat → ℝ) (N : Nat) (s : State σ) : ℝ :=
  1 / 2 * inner P V N (s.vecs .v) (s.vecs .v) - 1 / 2 * inner P V N s.a (s.vecs .u) - P.dt ^ 2 / 8 * inner P V N s.a s.a

/-- No displacement has a larger ratio of stored energy to kinetic energy (of the same velocities) than `w2`: the square of the largest
frequency. -/
def FrequencyBound (P : Params) (C : Config) (K mu : ℝ) (S : Lps.Stored) (nbs : List (List Nat)) (ghost : (Nat → ℝ) → Nat → ℝ) (w2 : ℝ) :
    Prop :=
  ∀ u theta F, Lps.evaluate (Lps.displaced C u) .cells K mu S nbs.length (encode nbs) ghost = .ok (theta, F) →
    -Energy.power C F u nbs.length ≤ w2 * ∑ l ∈ Finset.range nbs.length, P.density l * C.v l * (u l ⬝ᵥ u l)

end Verif.Conserve
