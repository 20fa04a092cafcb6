import Verif.Fad.Model
import Verif.Tangent.Spec
import Mathlib.Analysis.Calculus.Deriv.Basic

/-! Specification vocabulary for tangents by automatic differentiation. -/

noncomputable section

namespace Verif.Fad

open Verif Verif.Neigh Verif.Mech Verif.Tangent
open scoped Topology

/-- `a` is the derivative at `F.y` of component `R` of the force (force density from all neighborhoods, times volume)
by coordinate `Q`: forces exist in a neighborhood of the present value of the coordinate, and `a` is their derivative. -/
def IsDerivative (K : Kernel) (F : Fields) (hs : List (List Nat)) (R Q : Nat) (a : ℝ) : Prop :=
  ∃ f : ℝ → Nat → ℝ, (∀ᶠ s in 𝓝 (0 : ℝ), internalForce K (bump F.y Q s) F.v hs = .ok (f s)) ∧
    HasDerivAt (fun s => F.vol (R / 3) * f s R) a 0

/-- What can go wrong in the neighborhood of a point does not: its weighted volume is not zero, and none of its neighbors
is where the point is. -/
def Solid.Sound (S : Solid) (y : Nat → ℝ) (gids : List Nat) : Prop :=
  ∀ j ∈ gids.tail, S.m (gids.getD 0 0) ≠ 0 ∧ comp y j ≠ comp y (gids.getD 0 0)

/-- The weighted volume of the point of each neighborhood is the one the material computes for it. -/
def Solid.Weighed (S : Solid) (hs : List (List Nat)) : Prop :=
  ∀ h ∈ hs, S.m (h.getD 0 0) = weightedVolumeAt (S.hood h fun _ => 0) 0 ((List.range (h.length - 1)).map (· + 1))

/-- Moduli, volumes, influence functions and bond damages have the signs they are meant to have. -/
structure Solid.Physical (S : Solid) : Prop where
  K : 0 ≤ S.K
  mu : 0 ≤ S.mu
  v : ∀ g, 0 < S.v g
  omega : ∀ z, 0 ≤ S.omega z S.horizon
  damage : ∀ g t, 0 ≤ S.damage g t ∧ S.damage g t ≤ 1

/-- No neighbor is pushed away by the bond: the force from the neighborhood on each of the neighbors does not point away from
the point. -/
def Solid.Pulls (S : Solid) (y : Nat → ℝ) (h : List Nat) : Prop :=
  ∀ f, elasticKernel S h (gather 3 h y) (fun _ => 0) = .ok f → ∀ k, 0 < k → k < h.length →
    comp f k ⬝ᵥ (comp y (h.getD k 0) - comp y (h.getD 0 0)) ≤ 0

/-- A processor holds the data of its points and bonds, by local id and by place in the bond data. -/
structure Solid.Holds (S : Solid) (P : Part) (y : Nat → ℝ) (C : Config) : Prop where
  x : ∀ i, C.x i = S.x (P.overlap.getD i 0)
  y : ∀ i, C.y i = comp y (P.overlap.getD i 0)
  v : ∀ i, C.v i = S.v (P.overlap.getD i 0)
  m : ∀ i, C.m i = S.m (P.overlap.getD i 0)
  damage : ∀ (q t : Nat) (ns : List Nat), P.nbs[q]? = some ns → t < ns.length →
    C.damage (bondPos P.nbs q t) = S.damage (P.overlap.getD q 0) t
  omega : C.omega = S.omega
  horizon : C.horizon = S.horizon
  thermal : C.thermal = S.thermal.map fun t => (t.1, fun i => t.2 (P.overlap.getD i 0))

/-- An array with three entries for each point. -/
def flat (F : Nat → V3) (k : Nat) : ℝ := F (k / 3) ⟨k % 3, Nat.mod_lt _ (by omega)⟩

end Verif.Fad
