import Verif.Conserve.NewmarkSpec

/-! Statements of C268, about linear momentum in implicit dynamics. -/

noncomputable section

namespace Verif.Conserve

open Verif Verif.Neigh Verif.Mech

variable {σ ω : Type}

/-- The sum over the points `0, …, N-1` of mass times the component `k` of a vector. -/
def total (rho V : Nat → ℝ) (N k : Nat) (v : Nat → ℝ) : ℝ := ∑ l ∈ Finset.range N, V l * (rho l * v (l * 3 + k))

/-- The internal forces the solver evaluates sum to zero, whatever the material. -/
def ForcesCancel (V : Nat → ℝ) (N : Nat) (T : Implicit.Solver σ ω) : Prop :=
  ∀ M wk w a wk' f, T.force M wk w a = .ok (wk', f) → ∀ k < 3, ∑ l ∈ Finset.range N, V l * f (l * 3 + k) = 0

end Verif.Conserve
