import Verif.Porous.Model
import Verif.Fad.Spec

/-! Specification vocabulary for the tangent of the coupled material. -/

noncomputable section

namespace Verif.Porous

open Verif Verif.Neigh Verif.Mech Verif.Tangent Verif.Fad
open scoped Topology

/-- Coordinates and pressures with unknown `Q` changed by `s`: unknowns `4 g`, `4 g + 1`, `4 g + 2` are the coordinates of
point `g`, unknown `4 g + 3` is its pressure. -/
def moved (X : State) (Q : Nat) (s : ℝ) : State :=
  if Q % 4 < 3 then { X with y := bump X.y (3 * (Q / 4) + Q % 4) s } else { X with p := bump X.p (Q / 4) s }

/-- Force densities and flow densities from all neighborhoods: each is evaluated on its own and the results are added. -/
def totalRates (K : Rates) (X : State) : List (List Nat) → Outcome ((Nat → ℝ) × (Nat → ℝ))
  | [] => .ok (fun _ => 0, fun _ => 0)
  | h :: hs => do
    let f ← K h (gather 3 h X.y) (gather 1 h X.p)
    let rest ← totalRates K X hs
    .ok (fun r => spread 3 h f.1 r + rest.1 r, fun r => spread 1 h f.2 r + rest.2 r)

/-- Row `R` of forces and flows, numbered like the unknowns. -/
def rowOf (f : (Nat → ℝ) × (Nat → ℝ)) (R : Nat) : ℝ := if R % 4 < 3 then f.1 (3 * (R / 4) + R % 4) else f.2 (R / 4)

/-- `a` is the derivative of row `R` (force or flow, density times volume) by unknown `Q`: forces and flows exist near the
present value of the unknown, and `a` is their derivative. -/
def IsRate (K : Rates) (X : State) (hs : List (List Nat)) (R Q : Nat) (a : ℝ) : Prop :=
  ∃ f : ℝ → (Nat → ℝ) × (Nat → ℝ), (∀ᶠ s in 𝓝 (0 : ℝ), totalRates K (moved X Q s) hs = .ok (f s)) ∧
    HasDerivAt (fun s => X.vol (R / 4) * rowOf (f s) R) a 0

/-- What can go wrong in the neighborhood of a point does not: that of the solid, and neither horizon nor viscosity is zero. -/
def Body.Sound (B : Body) (X : State) (gids : List Nat) : Prop :=
  B.solid.Sound X.y gids ∧ B.fluid.viscosity ≠ 0 ∧ B.solid.horizon ≠ 0

end Verif.Porous
