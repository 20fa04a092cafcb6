import Verif.Needleman.Model
import Verif.Correspondence.StressSpec

/-! Specification vocabulary for C156 to C160. -/

noncomputable section

namespace Verif.Needleman

open Verif Verif.Neigh Verif.Mech Verif.Tensor Verif.Correspondence Matrix

/-- The flow stress at a rate of plastic strain and a plastic strain, when `yield` is that at the reference
rate and no plastic strain. -/
def Const.flowStress (P : Const) (yield rate eqps : ℝ) : ℝ :=
  yield * (1 + eqps / P.ref0) ^ P.strainExp / (1 + (eqps / P.ref1) ^ 2) * (rate / P.refRate) ^ P.rateExp

/-- Sensible constants. -/
structure Const.Sound (P : Const) : Prop where
  shear : 0 < P.shear
  yield : 0 < P.yield
  strainExp : 0 ≤ P.strainExp
  rateExp : 0 ≤ P.rateExp
  refRate : 0 < P.refRate
  ref0 : 0 < P.ref0
  ref1 : 0 < P.ref1
  flaw : ∀ f, P.flaw = some f → f.size ≠ 0 ∧ 0 ≤ f.magnitude ∧ f.magnitude < 1

/-- The elastic stress of a step. -/
def elastic (P : Const) (dt : ℝ) (D sigma : M9) : Mat :=
  sigma.toMatrix + hooke P.bulk P.shear (dt • D.toMatrix)

/-- The equation for the magnitude `x` of the plastic strain increment of a step that goes on in the
direction of the stress: what is left of the strain in that direction after the plastic part and the
elastic part that takes the stress to the flow stress. -/
def Const.balance (P : Const) (yield dt : ℝ) (D sigma : M9) (eqps x : ℝ) : ℝ :=
  ip (dev (elastic P dt D sigma)) (dev (dt • D.toMatrix)) / norm9 (dev (elastic P dt D sigma)) - x -
    (Real.sqrt (2 / 3) * P.flowStress yield (Real.sqrt (2 / 3) * x / dt) (eqps + x) -
      norm9 (dev sigma.toMatrix)) / (2 * P.shear)

/-- A run of the material from the start: the rates of deformation are arbitrary, the time steps positive.
The fields of step N and those found at step N+1. -/
inductive Run (P : Const) (x : Nat → V3) (n : Nat) : Fields → Fields → Prop where
  | start : Run P x n zeroFields zeroFields
  | step {old new r : Fields} {dt : ℝ} {D : Nat → M9} (hdt : 0 < dt) (h : Run P x n old new)
      (hr : computeCauchyStress P x dt D n old new = .ok r) : Run P x n r (r.swap old)

/-- The plastic strain of a step is recorded so that, to one per cent, the stress is the flow stress at the
recorded plastic strain and its rate. -/
def Consistent : Prop :=
  ∀ (P : Const) (yield dt : ℝ) (D sigma : M9) (eqps : ℝ) (o : PlasticOut), P.Sound → 0 < yield → 0 < dt →
    0 ≤ eqps → point P yield dt D sigma eqps = .ok o →
    o.stress.toMatrix ≠ elastic P dt D sigma →
    |vonMises o.stress.toMatrix - P.flowStress yield ((o.eqps - eqps) / dt) o.eqps| ≤
      1 / 100 * vonMises o.stress.toMatrix

/-- The stress after a step depends continuously on the rate of deformation. -/
def StressContinuous : Prop :=
  ∀ (P : Const) (yield dt : ℝ) (D sigma : M9) (eqps : ℝ) (o : PlasticOut), P.Sound → 0 < yield → 0 < dt →
    0 ≤ eqps → point P yield dt D sigma eqps = .ok o →
    ∀ ε : ℝ, 0 < ε → ∃ δ : ℝ, 0 < δ ∧ ∀ (D' : M9) (o' : PlasticOut),
      norm9 (D'.toMatrix - D.toMatrix) < δ → point P yield dt D' sigma eqps = .ok o' →
      norm9 (o'.stress.toMatrix - o.stress.toMatrix) < ε

end Verif.Needleman
