import Verif.Lps.Model
import Verif.Energy.Spec

/-! Specification vocabulary for C135 to C137. -/

noncomputable section

namespace Verif.Lps

open Verif Verif.Neigh Verif.Mech Verif.Energy

/-- The body with displacements `u`. -/
def displaced (C : Config) (u : Nat → V3) : Config := { C with y := fun k => C.x k + u k }

/-- The material was set up for the body, with volumes of cells and computed weighted volumes. -/
def SetUp (C : Config) (nbs : List (List Nat)) (S : Stored) : Prop :=
  ∃ S0, prepare C .cells none nbs.length (encode nbs) S0 = .ok S

/-- No bond has length zero in the beginning, and no point that has bonds has weighted volume zero. -/
def Ready (C : Config) (S : Stored) (nbs : List (List Nat)) : Prop :=
  ∀ p j, HasBond nbs p j → S.m p ≠ 0 ∧ C.x j ≠ C.x p

/-- Moduli and volumes are positive, the influence function is not negative, and the damage is between none and full. -/
structure Sound (C : Config) (K mu : ℝ) : Prop where
  bulk : 0 < K
  shear : 0 < mu
  volume : ∀ k, 0 < C.v k
  influence : ∀ z h, 0 ≤ C.omega z h
  damage : ∀ b, 0 ≤ C.damage b ∧ C.damage b ≤ 1

/-- To first order no bond that carries force changes its length. -/
def LengthsKept (C : Config) (nbs : List (List Nat)) (u : Nat → V3) : Prop :=
  ∀ p ns t j, nbs[p]? = some ns → ns[t]? = some j → C.damage (bondPos nbs p t) < 1 →
    0 < C.omega (len (C.x j - C.x p)) C.horizon → (C.x j - C.x p) ⬝ᵥ (u j - u p) = 0

end Verif.Lps
