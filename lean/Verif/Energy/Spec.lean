import Verif.Energy.Model
import Verif.Mech.Spec

/-!
# Stored energy: notions used in the statements
-/

noncomputable section

namespace Verif.Energy

open Verif Verif.Neigh Verif.Mech

/-- The sum of the stored energies reported for the points when the force was evaluated for the
configuration. -/
def EnergyIs (C : Config) (K mu : ℝ) (nbs : List (List Nat)) (E : ℝ) : Prop :=
  ∃ th theta W U0 U, dilatation C nbs.length (encode nbs) th = .ok theta ∧
    storedEnergy C K mu theta nbs.length (encode nbs) W U0 = .ok U ∧
    E = ∑ p ∈ Finset.range nbs.length, U p

/-- The points are moved from their present positions by `s` times `d`. -/
def shifted (C : Config) (d : Nat → V3) (s : ℝ) : Config := { C with y := fun k => C.y k + s • d k }

/-- The weighted volumes are those the material has computed for the neighborhoods. -/
def Weighted (C : Config) (nbs : List (List Nat)) : Prop :=
  ∃ m0, weightedVolumeLoop C (encode nbs) nbs.length 0 0 m0 = .ok C.m

/-- No bond is damaged. -/
def Intact (C : Config) (nbs : List (List Nat)) : Prop :=
  ∀ p ns t, nbs[p]? = some ns → t < ns.length → C.damage (bondPos nbs p t) = 0

/-- Every bond is intact or broken. -/
def IntactOrBroken (C : Config) : Prop := ∀ b, C.damage b = 0 ∨ C.damage b = 1

/-- The power of the internal forces (force density times volume) for the velocities `d`. -/
def power (C : Config) (F d : Nat → V3) (N : Nat) : ℝ :=
  ∑ k ∈ Finset.range N, C.v k * (F k ⬝ᵥ d k)

/-- The bonds that carry force have the length they had in the beginning: those that are not broken
and for which the influence function is positive. -/
def LengthsKept (C : Config) (nbs : List (List Nat)) : Prop :=
  ∀ p ns t j, nbs[p]? = some ns → ns[t]? = some j → C.damage (bondPos nbs p t) < 1 →
    0 < C.omega (len (C.x j - C.x p)) C.horizon → len (C.y j - C.y p) = len (C.x j - C.x p)

/-- Moduli, volumes, weighted volumes, influence function and damage have admissible values. -/
structure Admissible (C : Config) (K mu : ℝ) (nbs : List (List Nat)) : Prop where
  bulk : 0 < K
  shear : 0 < mu
  volume : ∀ k, 0 < C.v k
  weighted : ∀ p < nbs.length, 0 < C.m p
  influence : ∀ z h, 0 ≤ C.omega z h
  damage : ∀ b, C.damage b ≤ 1

end Verif.Energy
