import Verif.Hardening.Model
import Verif.Mech.Spec

/-! Specification vocabulary for C129 and C130. -/

noncomputable section

namespace Verif.Hardening

open Verif Verif.Neigh Verif.Mech

/-- The yield value of a point with shear correction factor `scf` for the horizon `delta`, before hardening. -/
def virginYield (P : Const) (delta scf : ℝ) : ℝ :=
  scf ^ 2 * (25 * P.yieldStress ^ 2 / (8 * Real.pi * delta ^ 5))

/-- Constants and a configuration the material is meant for: it hardens, moduli, factors and weighted volumes are
positive, volumes are not negative. -/
structure Sound (P : Const) (scf : Nat → ℝ) (n : Nat) (C : Config) : Prop where
  hardens : 0 < P.H
  shear : 0 < P.mu
  horizon : 0 < C.horizon
  factor : ∀ p < n, 0 < scf p
  weighted : ∀ p < n, 0 < C.m p
  volumes : ∀ k, 0 ≤ C.v k

/-- One load step: the configuration and the stale contents of the output arrays. -/
structure Input where
  C : Config
  th : Nat → ℝ
  stale : PlasticState

/-- `Run P scf nbs s0 s hist`: from plastic extensions and multipliers `s0` the material was evaluated for a sequence
of steps, each starting from the values of the one before, reaching `s`; `hist` lists configuration, dilatation and
state after each step, latest first. -/
inductive Run (P : Const) (scf : Nat → ℝ) (nbs : List (List Nat)) (s0 : PlasticState) :
    PlasticState → List (Config × (Nat → ℝ) × PlasticState) → Prop
  | start : Run P scf nbs s0 s0 []
  | step {s hist} (i : Input) {theta s'} : Run P scf nbs s0 s hist →
      material i.C P scf nbs.length (encode nbs) i.th s.edp s.lambda i.stale = .ok (theta, s') →
      Run P scf nbs s0 s' ((i.C, theta, s') :: hist)

end Verif.Hardening
