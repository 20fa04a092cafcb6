import Verif.Fad.PlasticModel
import Verif.Fad.Spec

/-! Specification vocabulary for the tangent of the elastic-plastic material. -/

noncomputable section

namespace Verif.Fad

open Verif Verif.Neigh Verif.Mech Verif.Tangent
open scoped Topology

namespace PlasticSolid

variable (S : PlasticSolid) (y : Nat → ℝ) (h : List Nat)

/-- Length in the reference configuration of the bond to neighbor `t` of the first point of `h`. -/
def bondRef (t : Nat) : ℝ := len (S.x (h.getD (t + 1) 0) - S.x (h.getD 0 0))

/-- Extension of that bond. -/
def bondExt (t : Nat) : ℝ := len (comp y (h.getD (t + 1) 0) - comp y (h.getD 0 0)) - S.bondRef h t

/-- The dilatation of the point. -/
def dilat : ℝ :=
  ∑ t ∈ Finset.range (h.length - 1), 3 * S.omega (S.bondRef h t) S.horizon * (1 - S.damage (h.getD 0 0) t) * S.bondRef h t *
    S.bondExt y h t * S.v (h.getD (t + 1) 0) / S.m (h.getD 0 0)

/-- The squared norm of the trial deviatoric force state of the point. -/
def trial : ℝ :=
  ∑ t ∈ Finset.range (h.length - 1), ((1 - S.damage (h.getD 0 0) t) * (15 * S.mu / S.m (h.getD 0 0)) *
    (S.bondExt y h t - S.dilat y h * S.bondRef h t / 3 - S.edp (h.getD 0 0) t)) ^ 2 * S.v (h.getD (t + 1) 0)

/-- The value at which the material yields. -/
def yieldLimit : ℝ :=
  match S.planar with
  | none => 25 * S.yieldStress ^ 2 / (8 * Real.pi * S.horizon ^ 5)
  | some thickness => 75 * S.yieldStress ^ 2 / (8 * Real.pi * thickness * S.horizon ^ 4)

/-- The point is neither on the yield surface nor beyond. -/
def BelowYield : Prop := S.trial y h / 2 < S.yieldLimit

/-- The point is on the yield surface. -/
def AtYield : Prop := S.trial y h / 2 = S.yieldLimit

/-- The constants have the signs they are meant to have. -/
structure Ductile : Prop where
  yieldStress : S.yieldStress ≠ 0
  horizon : 0 < S.horizon
  planar : ∀ t, S.planar = some t → 0 < t
  v : ∀ g, 0 ≤ S.v g

/-- The bonds of the point are intact or broken, the influence function is one on them and they have no plastic
extension. -/
def Virgin : Prop := ∀ t < h.length - 1, (S.damage (h.getD 0 0) t = 0 ∨ S.damage (h.getD 0 0) t = 1) ∧
  S.omega (S.bondRef h t) S.horizon = 1 ∧ S.edp (h.getD 0 0) t = 0

end PlasticSolid

end Verif.Fad
