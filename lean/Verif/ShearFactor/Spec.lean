import Verif.ShearFactor.Model
import Verif.Energy.Spec
import Verif.Hardening.Model
import Verif.Mech.Lemmas

/-!
# The surface correction factor: notions used in the statements
-/

noncomputable section

namespace Verif.ShearFactor

open Verif Verif.Neigh Verif.Mech
open scoped Matrix

/-- Displacement gradients of unit size for a shear in the plane of two axes without rotation. -/
def unitShear : Mode → Matrix (Fin 3) (Fin 3) ℝ
  | .XY => !![0, 1, 0; 1, 0, 0; 0, 0, 0]
  | .ZX => !![0, 0, 1; 0, 0, 0; 1, 0, 0]
  | .YZ => !![0, 0, 0; 0, 0, 1; 0, 1, 0]

/-- The body, which was in its reference configuration, after a uniform shear of the amount `g`; the point `c`
of space keeps its place. -/
def shearedBody (C : Config) (M : Mode) (g : ℝ) (c : V3) : Config :=
  { C with y := fun k => C.x k + g • (unitShear M *ᵥ (C.x k - c)) }

/-- The body with the weighted volumes a material has computed. -/
def withVolumes (C : Config) (m : Nat → ℝ) : Config := { C with m := m }

/-- `w` is the energy of distortion (the stored energy without the part of the volume change) that the
multiphysics material reports at the point `p` for the uniform shear by `gamma`. -/
def ShearEnergy (C : Config) (R : Corrected) (K mu : ℝ) (nbs : List (List Nat)) (M : Mode) (c : V3)
    (p : Nat) (w : ℝ) : Prop :=
  ∃ th theta W0 W,
    dilatation (withVolumes (shearedBody C M gamma c) R.m) nbs.length (encode nbs) th = .ok theta ∧
    energyDensity (withVolumes (shearedBody C M gamma c) R.m) K mu R.scf theta nbs.length (encode nbs) W0
      = .ok W ∧
    w = W p - 1 / 2 * K * theta p ^ 2

/-- `w` is the energy of distortion of the material with hardening at the point `p` for the uniform shear by
`gamma`, applied without plastic flow to a body that has none: half the sum over the bonds of the deviatoric
force state times the deviatoric extension. -/
def HardeningEnergy (C : Config) (R : Corrected) (P : Hardening.Const) (nbs : List (List Nat)) (M : Mode)
    (c : V3) (p : Nat) (w : ℝ) : Prop :=
  ∃ th theta, ∃ td : Bond → ℝ,
    dilatation (withVolumes (shearedBody C M gamma c) R.m) nbs.length (encode nbs) th = .ok theta ∧
    (∀ b ∈ bondsOf nbs, Hardening.update (withVolumes (shearedBody C M gamma c) R.m) P R.scf theta
      (fun _ => 0) 0 b = .ok (td b, 0)) ∧
    w = 1 / 2 * (((bondsOf nbs).filter fun b => b.i = p).map fun b =>
      td b * devExtension (shearedBody C M gamma c) theta b.i b.j * C.v b.j).sum

/-- The energy density of the classical linear elastic solid in this shear. -/
def classical (mu : ℝ) : ℝ := 2 * mu * gamma ^ 2

/-- Volumes and influence function are not negative for the neighbors of any point. -/
def Nonneg (C : Config) (nbs : List (List Nat)) : Prop :=
  ∀ p j, HasBond nbs p j → 0 ≤ C.v j ∧ 0 ≤ C.omega (len (C.x j - C.x p)) C.horizon

/-- All neighbors are somewhere else and have some weight. -/
def Positive (C : Config) (nbs : List (List Nat)) : Prop :=
  ∀ p j, HasBond nbs p j → C.x j ≠ C.x p ∧ 0 < C.v j ∧ 0 < C.omega (len (C.x j - C.x p)) C.horizon

/-- The length of the bond from `p` to `j` after the shear. -/
def newLength (C : Config) (M : Mode) (p j : Nat) : ℝ :=
  len ((C.x j - C.x p) + gamma • (unitShear M *ᵥ (C.x j - C.x p)))

/-- Two bonds of the point change their lengths in different ratios in one of the shears. -/
def Distorts (C : Config) (p : Nat) (ns : List Nat) : Prop :=
  ∃ M, ∃ j ∈ ns, ∃ k ∈ ns, newLength C M p j / len (C.x j - C.x p) ≠ newLength C M p k / len (C.x k - C.x p)

/-- The neighborhood `ns'` of `p'` in the body `C'` looks as that of `p` in `C`, up to a displacement, a
magnification by `s` and a common factor `c` of the volumes; `g` relates the points. -/
structure SameShape (C C' : Config) (p p' : Nat) (ns ns' : List Nat) (g : Nat → Nat) (s c : ℝ) : Prop where
  ids : ns'.Perm (ns.map g)
  place : ∀ j ∈ ns, C'.x (g j) - C'.x p' = s • (C.x j - C.x p)
  volume : ∀ j ∈ ns, C'.v (g j) = c * C.v j
  weight : ∀ j ∈ ns, C'.omega (s * len (C.x j - C.x p)) C'.horizon = C.omega (len (C.x j - C.x p)) C.horizon

/-- `E` is the stored energy reported for the body less the work of the pore pressure: the sum over the points of
(energy density - pressure times dilatation) times volume. -/
def FreeEnergyIs (C : Config) (K mu : ℝ) (scf pressure : Nat → ℝ) (nbs : List (List Nat)) (E : ℝ) : Prop :=
  ∃ th theta W0 W, dilatation C nbs.length (encode nbs) th = .ok theta ∧
    energyDensity C K mu scf theta nbs.length (encode nbs) W0 = .ok W ∧
    E = ∑ p ∈ Finset.range nbs.length, (W p - pressure p * theta p) * C.v p

end Verif.ShearFactor
