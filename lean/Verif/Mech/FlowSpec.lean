import Verif.Mech.Spec
import Verif.Energy.Spec

/-! Specification vocabulary for the plastic extension of bonds. -/

noncomputable section

namespace Verif.Mech

open Verif Verif.Neigh

/-- The volume that the plastic extensions of the bonds of point `p` add up to: what the dilatation would be of a point whose
bonds had these extensions, up to the factor three over the weighted volume. -/
def plasticVolume (x : Nat → V3) (v : Nat → ℝ) (nbs : List (List Nat)) (edp : Nat → ℝ) (p : Nat) (ns : List Nat) : ℝ :=
  ((ns.zipIdx).map fun (j, t) => edp (bondPos nbs p t) * len (x j - x p) * v j).sum

/-- The points have reference positions `x` and volumes `v`, the weighted volumes are those computed from them, and at point
`p` with neighbors `ns` no bond is damaged and the influence function is one. -/
structure Sane (x : Nat → V3) (v : Nat → ℝ) (nbs : List (List Nat)) (p : Nat) (ns : List Nat) (C : Config) : Prop where
  pos : C.x = x
  vol : C.v = v
  weighted : Energy.Weighted C nbs
  damage : ∀ t < ns.length, C.damage (bondPos nbs p t) = 0
  omega : ∀ j ∈ ns, C.omega (len (x j - x p)) C.horizon = 1

end Verif.Mech
