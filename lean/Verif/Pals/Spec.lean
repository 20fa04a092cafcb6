import Verif.Pals.Model
import Verif.Energy.Lemmas

/-! Specification vocabulary for C132 to C134. -/

noncomputable section

namespace Verif.Pals

open Verif Verif.Neigh Verif.Mech Verif.Energy
open scoped Matrix

/-- The quadratic form of a strain. -/
def quad (E : Matrix (Fin 3) (Fin 3) ℝ) (d : V3) : ℝ := d ⬝ᵥ (E *ᵥ d)

/-- The six matching strains: three uniaxial ones and three shears. -/
def unitStrain : Fin 6 → Matrix (Fin 3) (Fin 3) ℝ :=
  ![!![1, 0, 0; 0, 0, 0; 0, 0, 0], !![0, 0, 0; 0, 1, 0; 0, 0, 0], !![0, 0, 0; 0, 0, 0; 0, 0, 1],
    !![0, 1, 0; 1, 0, 0; 0, 0, 0], !![0, 0, 1; 0, 0, 0; 1, 0, 0], !![0, 0, 0; 0, 0, 1; 0, 1, 0]]

/-- The deviatoric part of a strain. -/
def deviator (E : Matrix (Fin 3) (Fin 3) ℝ) : Matrix (Fin 3) (Fin 3) ℝ := E - (E.trace / 3) • 1

/-- The sum of the squares of the entries. -/
def square (E : Matrix (Fin 3) (Fin 3) ℝ) : ℝ := ∑ i, ∑ j, E i j ^ 2

/-- How much of a matching strain the bonds of point `p` see. -/
def share (C : Config) (nbs : List (List Nat)) (p : Nat) (i : Fin 6) : ℝ :=
  ((bondsAt nbs p).map fun b => quad (unitStrain i) (C.x b.j - C.x b.i) ^ 2 * C.v b.j).sum

/-- The bonds of point `p` see the matching strain `i` at more than a tiny part of what they see of all of them. -/
def Sees (C : Config) (nbs : List (List Nat)) (p : Nat) (i : Fin 6) : Prop :=
  1.0e-15 * ∑ j, share C nbs p j ≤ share C nbs p i

/-- The entries of a strain, as multiples of the matching strains. -/
def entry (E : Matrix (Fin 3) (Fin 3) ℝ) : Fin 6 → ℝ :=
  ![E 0 0, E 1 1, E 2 2, (E 0 1 + E 1 0) / 2, (E 0 2 + E 2 0) / 2, (E 1 2 + E 2 1) / 2]

/-- The bonds of point `p` determine the multipliers: no combination of matching strains that they see leaves the length of
every bond unchanged, and the squares of the deviatoric elongations are independent too. -/
structure Determined (C : Config) (nbs : List (List Nat)) (p : Nat) : Prop where
  volume : ∀ w : Fin 6 → ℝ, (∀ i, ¬ Sees C nbs p i → w i = 0) →
    (∀ b ∈ bondsAt nbs p, ∑ i, w i * quad (unitStrain i) (C.x b.j - C.x b.i) = 0) → w = 0
  shape : ∀ w : Fin 6 → ℝ, (∀ i, ¬ Sees C nbs p i → w i = 0) →
    (∀ b ∈ bondsAt nbs p, ∑ i, w i * quad (deviator (unitStrain i)) (C.x b.j - C.x b.i) ^ 2 = 0) → w = 0

/-- The body is strained by `s` times `E`. -/
def strained (C : Config) (E : Matrix (Fin 3) (Fin 3) ℝ) (s : ℝ) : Config := { C with y := fun k => C.x k + s • E *ᵥ C.x k }

/-- The stored energy of all points for the dilatation of a force evaluation. -/
def EnergyIs (L : Law) (C : Config) (S : Setup) (nbs : List (List Nat)) (E : ℝ) : Prop :=
  ∃ th theta F U0 U, material L C S nbs.length (encode nbs) th = .ok (theta, F) ∧
    storedEnergy L C S theta nbs.length (encode nbs) U0 = .ok U ∧ E = ∑ p ∈ Finset.range nbs.length, U p

/-- The material was set up with success. -/
def SetUp (L : Law) (C : Config) (nbs : List (List Nat)) (S : Setup) : Prop :=
  ∃ S0, prepare L C nbs.length (encode nbs) S0 = .ok S

end Verif.Pals
