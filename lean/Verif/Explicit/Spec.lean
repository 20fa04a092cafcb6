import Verif.Explicit.Model
import Mathlib.Algebra.BigOperators.Group.Finset.Basic

/-!
# Explicit time integration: vocabulary of the properties
-/

namespace Verif.Explicit

open Verif Verif.BC

variable {σ : Type}

/-- Component `k` of the linear momentum of the points `0, …, N-1` with cell volumes `V`. -/
noncomputable def momentum (P : Params) (V : Nat → ℝ) (N k : Nat) (v : Nat → ℝ) : ℝ :=
  ∑ l ∈ Finset.range N, P.density l * V l * v (l * 3 + k)

/-- The force densities an evaluation delivers have no resultant. -/
def Balanced (eval : Eval σ) (V : Nat → ℝ) (N : Nat) : Prop :=
  ∀ b n w b' f, eval b n w = .ok (b', f) → ∀ k < 3, ∑ l ∈ Finset.range N, V l * f (l * 3 + k) = 0

/-- Conditions that cannot fail: existing node sets, functions defined everywhere, and no increment
relative to time zero. -/
def Regular (C : Ctx) (cs : List Condition) : Prop :=
  ∀ c ∈ cs, (∃ nodes, C.sets c.nodeSet = some nodes) ∧ (∀ x y z t, (c.value x y z t).isSome) ∧
    ∀ p q, c.kind ≠ .increment p q true

end Verif.Explicit
