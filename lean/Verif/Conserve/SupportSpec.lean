import Verif.Conserve.LoadSpec

/-! Statements of C269, about the reactions in quasi-static analyses. -/

noncomputable section

namespace Verif.Conserve

open Verif Verif.Neigh Verif.Mech

variable {σ ω : Type}

/-- The internal forces the quasi-static solver evaluates sum to zero, whatever the material. -/
def NoResultant (V : Nat → ℝ) (N : Nat) (T : QuasiStatic.Solver σ ω) : Prop :=
  ∀ M wk dt w wk' f, T.force M wk dt w = .ok (wk', f) → ∀ k < 3, ∑ l ∈ Finset.range N, V l * f (l * 3 + k) = 0

open Classical in
/-- The sum of the body forces in direction `k` at points that are free in this direction. -/
def carried (E : QuasiStatic.Env) (ext : Nat → ℝ) (k : Nat) : ℝ :=
  ∑ l ∈ Finset.range E.C.owned.length, if Fixed E l k then 0 else E.volume l * ext (l * 3 + k)

end Verif.Conserve
