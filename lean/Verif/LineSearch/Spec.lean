import Verif.LineSearch.Model

/-!
# Line search: notions used in the statements
-/

namespace Verif.LineSearch

open Verif

/-- The configuration of step length `alpha`. -/
noncomputable def trialOf (E : MechEnv) (w : Mech) (alpha : ℝ) : Mech where
  deltaU := fun i => w.deltaU i + alpha * E.lhs i
  y := fun i => E.x i + E.u i + w.deltaU i + alpha * E.lhs i
  v := fun i => (w.deltaU i + alpha * E.lhs i) / E.dt

/-- `rho` is the (finite) norm of the residual at step length `alpha`. -/
def NormAt (E : MechEnv) (w : Mech) (alpha rho : ℝ) : Prop :=
  ∃ r, E.eval (trialOf E w alpha) = .ok (some (r, rho))

/-- `alpha` is the best of the step lengths in `l`. -/
def BestOf (at_ : ℝ → ℝ → Prop) (l : List ℝ) (alpha : ℝ) : Prop :=
  alpha ∈ l ∧ ∃ rho, at_ alpha rho ∧ ∀ beta ∈ l, ∀ rho', at_ beta rho' → rho ≤ rho'

/-- Step lengths every search tries first. -/
noncomputable def firstSteps : List ℝ := [1 / 10, 1 / 5, 3 / 10, 1 / 2, 3 / 4, 1]

/-- Step lengths tried if the first ones do not help: every 0.002 up to 0.05, every 0.01 up to 0.2, every
0.05 up to 0.5, and six longer ones. -/
def SecondStep (a : ℝ) : Prop :=
  (∃ i : Nat, 1 ≤ i ∧ i ≤ 25 ∧ a = i / 500) ∨ (∃ i : Nat, 6 ≤ i ∧ i ≤ 20 ∧ a = i / 100) ∨
  (∃ i : Nat, 5 ≤ i ∧ i ≤ 10 ∧ a = i / 20) ∨ a = 3 / 4 ∨ a = 1 ∨ a = 3 / 2 ∨ a = 2 ∨ a = 5 ∨ a = 10

end Verif.LineSearch
