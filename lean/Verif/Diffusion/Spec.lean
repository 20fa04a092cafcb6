import Verif.Diffusion.Model
import Verif.Mech.Spec
import Mathlib.Logic.Relation

/-! Specification vocabulary for diffusion and fluid flow. -/

noncomputable section

namespace Verif.Diffusion

open Verif Verif.Neigh Verif.Mech

/-- `q` is in the neighborhood of `p` as often as `p` in that of `q`. -/
def Mutual (nbs : List (List Nat)) : Prop :=
  ∀ p q, (nbs.getD p []).count q = (nbs.getD q []).count p

/-- The heat (or fluid mass) entering the body per unit time: densities weighted by volume. -/
def total (v D : Nat → ℝ) (N : Nat) : ℝ := ∑ k ∈ Finset.range N, v k * D k

/-- A medium in which heat flows: positive coefficients and horizons, weights positive at every bond,
bonded points apart. -/
structure Conducting (M : Medium) (nbs : List (List Nat)) : Prop where
  coefficient : ∀ p, 0 < M.coefficient p
  horizon : ∀ p, 0 < M.horizon p
  volume : M.weights = none → ∀ p j, HasBond nbs p j → 0 < M.v j
  weight : ∀ w, M.weights = some w → ∀ k, 0 < w k
  apart : ∀ p j, HasBond nbs p j → M.x p ≠ M.x j

/-- Every point of the body is joined by a chain of bonds to a point where the temperature is
prescribed. -/
def Anchored (nbs : List (List Nat)) (B : Nat → Prop) : Prop :=
  ∀ p < nbs.length, ∃ c, B c ∧ Relation.ReflTransGen (HasBond nbs) p c

/-- `T` is a steady temperature field: the flux divergence can be computed and is zero wherever the
temperature is not prescribed. -/
def Steady (M : Medium) (nbs : List (List Nat)) (B : Nat → Prop) (T : Nat → ℝ) : Prop :=
  ∃ D, fluxDivergence M T nbs.length (encode nbs) = .ok D ∧ ∀ p < nbs.length, ¬ B p → D p = 0

/-- Constants of a fluid that flows. -/
structure Fluid.Physical (P : Fluid) : Prop where
  permeability : 0 ≤ P.permeability
  density : 0 < P.density
  viscosity : 0 < P.viscosity
  maxPermeability : 0 ≤ P.maxPermeability

end Verif.Diffusion
