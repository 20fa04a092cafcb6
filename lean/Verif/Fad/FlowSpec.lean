import Verif.Fad.PlasticSpec

/-! Specification vocabulary for the symmetry of the tangent of the elastic-plastic material. -/

noncomputable section

namespace Verif.Fad

open Verif Verif.Neigh Verif.Mech Verif.Tangent

namespace PlasticSolid

variable (S : PlasticSolid) (y : Nat → ℝ) (h : List Nat)

/-- The trial state of the point is beyond the yield surface. -/
def Yields : Prop := S.yieldLimit < S.trial y h / 2

/-- Each bond of the point is intact or broken. -/
def Whole : Prop := ∀ t < h.length - 1, S.damage (h.getD 0 0) t = 0 ∨ S.damage (h.getD 0 0) t = 1

/-- The influence function is one on the bonds of the point. -/
def Even : Prop := ∀ t < h.length - 1, S.omega (S.bondRef h t) S.horizon = 1

/-- No bond of the point is damaged, its weighted volume is the one computed for it, and the plastic extensions of its bonds
do not add up to a change of volume. -/
structure Isochoric : Prop where
  damage : ∀ t < h.length - 1, S.damage (h.getD 0 0) t = 0
  weighed : S.toSolid.Weighed [h]
  flow : ∑ t ∈ Finset.range (h.length - 1), S.edp (h.getD 0 0) t * S.bondRef h t * S.v (h.getD (t + 1) 0) = 0

end PlasticSolid

end Verif.Fad
