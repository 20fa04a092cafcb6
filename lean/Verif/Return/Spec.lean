import Verif.Return.Model
import Verif.Correspondence.StressSpec

/-! Specification vocabulary for C143 to C148. -/

noncomputable section

namespace Verif.Return

open Verif Verif.Neigh Verif.Mech Verif.Tensor Verif.Correspondence Matrix

/-- The yield stress at an equivalent plastic strain. -/
def Rule.yieldAt : Rule → ℝ → ℝ
  | .powerLaw y c n, e => y * (1 + e / c) ^ n
  | .saturation y0 ys k lin, e => ys - (ys - y0) * Real.exp (-(k * e)) + lin * e

/-- Parameters that describe hardening which does not become steeper. -/
def Rule.Sound : Rule → Prop
  | .powerLaw y c n => 0 < y ∧ 0 < c ∧ 0 ≤ n ∧ n ≤ 1
  | .saturation y0 ys k lin => 0 < y0 ∧ y0 ≤ ys ∧ 0 ≤ k ∧ 0 ≤ lin

/-- The slope of the yield stress. -/
def Rule.slopeAt (R : Rule) (e : ℝ) : ℝ := deriv R.yieldAt e

/-- Sensible constants; the initial yield stress is not as small as the number that guards the code
against division by zero. -/
structure Const.Sound (P : Const) : Prop where
  bulk : 0 < P.bulk
  shear : 0 < P.shear
  rule : P.rule.Sound
  floor : 2 / 10 ^ 20 ≤ P.rule.yieldAt 0

/-- The elastic stress of a step. -/
def elastic (P : Const) (dt : ℝ) (D sigma : M9) : Mat :=
  sigma.toMatrix + hooke P.bulk P.shear (dt • D.toMatrix)

/-- A run of the material from the start: rates of deformation and time steps are arbitrary.  The fields
of step N and those found at step N+1. -/
inductive Run (P : Const) (nbs : List (List Nat)) : MatState → MatState → Prop where
  | start : Run P nbs ⟨zeroFields, zeroFields⟩ ⟨zeroFields, zeroFields⟩
  | step {old new r : MatState} {dt : ℝ} {nodeRate bondRate : Nat → M9} (h : Run P nbs old new)
      (hr : computeCauchyStress P dt nodeRate bondRate nbs.length (encode nbs) old new = .ok r) :
      Run P nbs r ⟨r.nodes.swap old.nodes, r.bonds.swap old.bonds⟩

end Verif.Return
