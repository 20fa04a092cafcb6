import Verif.Correspondence.StartModel
import Verif.Correspondence.StressSpec
import Mathlib.Analysis.SpecialFunctions.Log.Basic

/-! Specification vocabulary for C210 and C211. -/

noncomputable section

namespace Verif.Correspondence

open Verif Verif.Neigh Verif.Mech Verif.Tensor Matrix

/-- The stretch with the columns of `Q` as principal directions and principal stretches `l`. -/
def along (Q : Mat) (l : V3) : Mat := Q * diagonal l * Qᵀ

/-- `StretchRun B M nbs Q s0 l0 s path hist`: starting in state `s0` with principal stretches `l0`, the
body was stretched homogeneously with fixed principal directions `Q`, in steps of any lengths and with
any translations.  Every step goes on from the one before, and its velocities are the displacements
during the step divided by its length, as in explicit dynamics (src/core/Peridigm.cpp:1494-1515) and
quasi-statics.  `path` lists the principal stretches, `hist` the results, both latest first. -/
inductive StretchRun (B : Body) (M : Material) (nbs : List (List Nat)) (Q : Mat) (s0 : State) (l0 : V3) :
    State → List V3 → List Result → Prop
  | start : StretchRun B M nbs Q s0 l0 s0 [l0] []
  | step {s path hist r l} (dt : ℝ) (l' : V3) (c c' : V3) (y v : Nat → V3) (old : Stale) :
      StretchRun B M nbs Q s0 l0 s (l :: path) hist → dt ≠ 0 →
      (∀ k, y k = c' + along Q l' *ᵥ B.x k) →
      (∀ k, dt • v k = y k - (c + along Q l *ᵥ B.x k)) →
      computeForce B M dt y v s old nbs.length (encode nbs) = .ok r →
      StretchRun B M nbs Q s0 l0 r.next (l' :: l :: path) (r :: hist)

/-- The sum of the relative stretch increments of a path (latest first), each relative to the stretch at
the end of its step. -/
def increments : List V3 → V3
  | l' :: l :: path => fun i => (l' i - l i) / l' i + increments (l :: path) i
  | _ => 0

/-- How coarse the steps of a path are. -/
def coarseness : List V3 → V3
  | l' :: l :: path => fun i => (l' i - l i) ^ 2 / (l' i * l i) + coarseness (l :: path) i
  | _ => 0

/-- A stress update that leaves a stress-free point that does not deform free of stress. -/
def Quiet (M : Material) (n : Nat) : Prop :=
  ∀ dt D s t, M.update dt D s = .ok t →
    ∀ p < n, (D p).toMatrix = 0 → (s p).toMatrix = 0 → (t p).toMatrix = 0

/-- The claim that an elastic body brought back to where it started is free of stress again. -/
def ElasticReturns : Prop :=
  ∀ (B : Body) (bulk shear hc : ℝ) (nbs : List (List Nat)) (Q : Mat) (s0 s : State) (l0 : V3)
    (path : List V3) (hist : List Result) (old : Shape), 0 < bulk → 0 < shear → Qᵀ * Q = 1 →
    initialState B B.x nbs.length (encode nbs) old = .ok s0 →
    StretchRun B (elasticMaterial bulk shear hc) nbs Q s0 l0 s (l0 :: path) hist →
    (∀ l ∈ l0 :: path, ∀ i, 0 < l i) →
    ∀ p < nbs.length, (s.stress p).toMatrix = 0

/-- The claim that a body displaced by an initial condition has the stress of that deformation: if it is
deformed at all, it has a stress. -/
def InitialStress : Prop :=
  ∀ (B : Body) (bulk shear hc dt : ℝ) (nbs : List (List Nat)) (Q : Mat) (l : V3) (s : State)
    (y : Nat → V3) (old : Stale) (r : Result), 0 < bulk → 0 < shear → Qᵀ * Q = 1 →
    (∀ i, 0 < l i) → l ≠ 1 →
    begin B (fun x k => along Q l *ᵥ x k) nbs.length (encode nbs) old.shape = .ok (s, y) →
    computeForce B (elasticMaterial bulk shear hc) dt y 0 s old nbs.length (encode nbs) = .ok r →
    ∃ p < nbs.length, (r.stress p).toMatrix ≠ 0

/-- The claim that a body in its reference configuration is free of stress at time zero, whatever its
initial velocities. -/
def StressFreeStart : Prop :=
  ∀ (B : Body) (bulk shear hc dt : ℝ) (nbs : List (List Nat)) (v y : Nat → V3) (s : State)
    (old : Stale) (r : Result), 0 < bulk → 0 < shear → 0 < dt →
    begin B id nbs.length (encode nbs) old.shape = .ok (s, y) →
    computeForce B (elasticMaterial bulk shear hc) dt y v s old nbs.length (encode nbs) = .ok r →
    ∀ p < nbs.length, (r.stress p).toMatrix = 0

end Verif.Correspondence
