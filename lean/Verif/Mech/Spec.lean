import Verif.Mech.Model
import Verif.Neigh.Spec
import Mathlib.LinearAlgebra.CrossProduct
import Mathlib.Algebra.BigOperators.Group.Finset.Basic

/-! Specification vocabulary for C17 to C24. -/

noncomputable section

namespace Verif.Mech

open Verif Verif.Neigh

/-- All ids that occur (as point or as neighbor) are below `N`. -/
def Within (nbs : List (List Nat)) (N : Nat) : Prop :=
  nbs.length ≤ N ∧ ∀ ns ∈ nbs, ∀ j ∈ ns, j < N

/-- Total force (linear momentum rate): force densities weighted by cell volume. -/
def totalForce (v : Nat → ℝ) (F : Nat → V3) (N : Nat) : V3 :=
  ∑ k ∈ Finset.range N, v k • F k

/-- Total moment about the origin of forces acting at the positions `y`. -/
def totalMoment (y : Nat → V3) (v : Nat → ℝ) (F : Nat → V3) (N : Nat) : V3 :=
  ∑ k ∈ Finset.range N, v k • crossProduct (y k) (F k)

/-- `p` has neighbor `j` in the neighborhoods `nbs`. -/
def HasBond (nbs : List (List Nat)) (p j : Nat) : Prop := ∃ ns, nbs[p]? = some ns ∧ j ∈ ns

/-- A configuration in which no kernel divides by zero: points with bonds have a weighted volume, and
bonded points coincide neither before nor after the deformation. -/
def Proper (C : Config) (nbs : List (List Nat)) : Prop :=
  ∀ p j, HasBond nbs p j → C.m p ≠ 0 ∧ C.y j ≠ C.y p ∧ C.x j ≠ C.x p

/-- The position of the bond data of the `t`-th neighbor of point `p`. -/
def bondPos (nbs : List (List Nat)) (p t : Nat) : Nat := ((nbs.take p).map List.length).sum + t

/-- The positions are moved by the rigid motion with rotation (or reflection) `Q` and translation `c`. -/
def moved (Q : Matrix (Fin 3) (Fin 3) ℝ) (c : V3) (y : Nat → V3) : Nat → V3 :=
  fun k => Q.mulVec (y k) + c

/-- The deviatoric extension of the bond from `p` to its `t`-th neighbor `j`: elongation minus the part
due to the dilatation `theta`. -/
def devExtension (C : Config) (theta : Nat → ℝ) (p j : Nat) : ℝ :=
  len (C.y j - C.y p) - len (C.x j - C.x p) - theta p * len (C.x j - C.x p) / 3

/-- Half of the squared norm of the deviatoric force state of point `p` with neighbors `ns` when its
plastic extensions are `edp`: the quantity the yield condition limits.  Bonds with damage `d` carry
the fraction `1 - d`. -/
def yieldMeasure (C : Config) (mu : ℝ) (nbs : List (List Nat)) (theta edp : Nat → ℝ) (p : Nat)
    (ns : List Nat) : ℝ :=
  (ns.zipIdx.map fun (j, t) =>
    ((1 - C.damage (bondPos nbs p t)) * (15 * mu / C.m p) *
      (devExtension C theta p j - edp (bondPos nbs p t))) ^ 2 * C.v j).sum / 2

/-- One load step of the elastic-plastic material: the configuration and the stale contents of the
output arrays. -/
structure PlasticInput where
  C : Config
  th : Nat → ℝ
  stale : PlasticState

/-- `PlasticRun P nbs s0 s hist`: starting from plastic extensions and multipliers `s0`, the elastic-plastic
material was evaluated for a sequence of steps, each starting from the converged values of the one
before, reaching `s`; `hist` lists configuration, dilatation and state after each step, latest first. -/
inductive PlasticRun (P : PlasticConst) (nbs : List (List Nat)) (s0 : PlasticState) :
    PlasticState → List (Config × (Nat → ℝ) × PlasticState) → Prop
  | start : PlasticRun P nbs s0 s0 []
  | step {s hist} (i : PlasticInput) {theta s'} : PlasticRun P nbs s0 s hist →
      plasticMaterial i.C P nbs.length (encode nbs) i.th s.edp s.lambda i.stale = .ok (theta, s') →
      PlasticRun P nbs s0 s' ((i.C, theta, s') :: hist)

/-- The deviatoric extension as the viscoelastic material uses it: the elongation counts only to the
extent `1 - d` to which the bond is intact. -/
def viscoExtension (C : Config) (d : ℝ) (y : Nat → V3) (theta : Nat → ℝ) (p j : Nat) : ℝ :=
  (1 - d) * (len (y j - y p) - len (C.x j - C.x p)) - theta p * len (C.x j - C.x p) / 3

/-- What the viscoelastic material carries from step to step. -/
structure ViscoState where
  y : Nat → V3
  theta : Nat → ℝ
  edb : Nat → ℝ

/-- `ViscoRun P nbs s0 s hist`: from `s0` the viscoelastic material was evaluated for a sequence of steps of
positive length, reaching `s`; `hist` lists the state before, the configuration and the dilatation
after each step. -/
inductive ViscoRun (P : ViscoConst) (nbs : List (List Nat)) (s0 : ViscoState) :
    ViscoState → List (ViscoState × Config × (Nat → ℝ)) → Prop
  | start : ViscoRun P nbs s0 s0 []
  | step {s hist} (C : Config) (dt : ℝ) (th stale : Nat → ℝ) {theta edb F} : ViscoRun P nbs s0 s hist →
      0 < dt →
      viscoMaterial C P dt s.y s.theta s.edb nbs.length (encode nbs) th stale = .ok (theta, edb, F) →
      ViscoRun P nbs s0 ⟨C.y, theta, edb⟩ ((s, C, theta) :: hist)

end Verif.Mech
