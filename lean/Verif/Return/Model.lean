import Verif.Correspondence.StressModel
import Verif.Assoc.Model
import Mathlib.Analysis.SpecialFunctions.Pow.Real

/-!
# Nonlinear isotropic hardening: the radial return (model)

Models `radialReturnPowerlaw` and `radialReturnSaturationExponential`
(src/materials/isotropic_hardening_correspondence.cxx:1371-1691), the loops over points and bonds that
call them (the same file, 616-720, 1097-1369) and
src/materials/Peridigm_IsotropicHardeningPlasticBondAssociatedCorrespondenceMaterial.cpp, for the double
instantiation over the reals.  The two returns differ in the hardening rule only, which is a parameter
here.

Simplifications: divisions by zero and powers of negative numbers are undefined (the library function
gives a number for a negative base with an integral exponent); the message before `MPI_Abort` is not
modelled, `MPI_Abort` does not return.
-/

noncomputable section

namespace Verif.Return

open Verif Verif.Neigh Verif.Mech Verif.Tensor Verif.Correspondence
open scoped Classical

/-- The hardening rule with its parameters.
Models src/materials/Peridigm_IsotropicHardeningPlasticBondAssociatedCorrespondenceMaterial.cpp:70-80. -/
inductive Rule where
  | powerLaw (yield strain exponent : ℝ)
  | saturation (initial saturated constant linear : ℝ)

/-- `pow`.
Models the calls at src/materials/isotropic_hardening_correspondence.cxx:1463, 1499, 1521. -/
def pow (x e : ℝ) : Outcome ℝ :=
  if x < 0 ∨ (x = 0 ∧ e < 0) then .ub else .ok (x ^ e)

/-- `hardenedYieldStress`.
Models src/materials/isotropic_hardening_correspondence.cxx:1463, 1521 and 1624, 1682. -/
def hardened : Rule → ℝ → Outcome ℝ
  | .powerLaw y c n, eqps =>
    if c = 0 then .ub else do
      let q ← pow (1 + eqps / c) n
      .ok (y * q)
  | .saturation y0 ys k lin, eqps => .ok (y0 + (ys - y0) * (1 - Real.exp (-k * eqps)) + lin * eqps)

/-- `hardMod`.
Models src/materials/isotropic_hardening_correspondence.cxx:1499 and 1660. -/
def hardMod : Rule → ℝ → Outcome ℝ
  | .powerLaw y c n, eqps =>
    if c = 0 then .ub else do
      let q ← pow (1 + eqps / c) (n - 1)
      .ok (y * n / c * q)
  | .saturation y0 ys k lin, eqps => .ok (k * (ys - y0) * Real.exp (-k * eqps) + lin)

/-- The constants of the material. -/
structure Const where
  bulk : ℝ
  shear : ℝ
  rule : Rule

/-- `tol`.
Models src/materials/isotropic_hardening_correspondence.cxx:1414, 1575. -/
def tol (P : Const) : ℝ := 1 / 10 ^ 16 * P.bulk

/-- `maxIterations`.
Models src/materials/isotropic_hardening_correspondence.cxx:1416, 1577. -/
def maxIterations : Nat := 100

/-- What the iteration changes. -/
structure Iterate where
  plastic : ℝ
  eqps : ℝ
  stress : M9
  /-- `yieldFunctionVal` -/
  value : ℝ

/-- One pass through the loop, after the counter has been looked at.
Models src/materials/isotropic_hardening_correspondence.cxx:1498-1524 and 1659-1685. -/
def newton (P : Const) (vmTrial : ℝ) (flow : M9) (s : Iterate) : Outcome Iterate := do
  let h ← hardMod P.rule s.eqps
  if 3 * P.shear + h = 0 then .ub
  else
    let d := s.value / (3 * P.shear + h)
    let y ← hardened P.rule (s.eqps + d)
    .ok { plastic := s.plastic + d
          eqps := s.eqps + d
          stress := addScaled s.stress (-(Real.sqrt 6 * P.shear * d)) flow
          value := vmTrial - 3 * P.shear * (s.plastic + d) - y }

/-- The loop, with the number of passes that the counter still allows.
Models src/materials/isotropic_hardening_correspondence.cxx:1487-1525 and 1648-1686. -/
def iterate (P : Const) (vmTrial : ℝ) (flow : M9) : Nat → Iterate → Outcome Iterate
  | left, s =>
    if |s.value| > tol P then
      match left with
      | 0 => .fail .terminate
      | left + 1 => do
        let s' ← newton P vmTrial flow s
        iterate P vmTrial flow left s'
    else .ok s

/-- `radialReturnPowerlaw` and `radialReturnSaturationExponential`.
Models src/materials/isotropic_hardening_correspondence.cxx:1371-1530 and 1532-1691. -/
def radialReturn (P : Const) (dt : ℝ) (D sigma : M9) (eqps : ℝ) : Outcome PlasticOut := do
  let t := trialStress P.bulk P.shear dt D sigma
  let S := devStress t
  let y ← hardened P.rule eqps
  if misesOf S - y < 0 then .ok ⟨t, misesOf S, eqps⟩
  else
    let s ← iterate P (misesOf S) (scaled S (1 / magnitude S)) maxIterations ⟨0, eqps, t, misesOf S - y⟩
    .ok ⟨s.stress, misesOf S - 3 * P.shear * s.plastic, s.eqps⟩

/-- The fields of points, or of bonds. -/
structure Fields where
  stress : Nat → M9
  mises : Nat → ℝ
  eqps : Nat → ℝ
  triaxiality : Nat → ℝ

/-- `stressTriaxiality` from the stress `a` and the von Mises stress.
Models src/materials/isotropic_hardening_correspondence.cxx:664, 718, 1228, 1362. -/
def triaxialityOf (a : M9) (mises : ℝ) : ℝ := diagSum a / (3 * max (1 / 10 ^ 20) mises)

/-- The results of a point put into the fields.  With `early` the triaxiality is computed from the stress
that the field held before.
Models src/materials/isotropic_hardening_correspondence.cxx:647-664, 700-718, 1210-1228 and, with `early`,
1347-1366. -/
def Fields.put (early : Bool) (f : Fields) (p : Nat) (o : PlasticOut) : Fields where
  stress := Function.update f.stress p o.stress
  mises := Function.update f.mises p o.mises
  eqps := Function.update f.eqps p o.eqps
  triaxiality := Function.update f.triaxiality p
    (triaxialityOf (if early then f.stress p else o.stress) o.mises)

/-- The loop over points or bonds: `old` are the fields of step N, `new` those of step N+1 as found.
Models src/materials/isotropic_hardening_correspondence.cxx:616-667, 668-721, 1097-1232, 1233-1369. -/
def updateAll (early : Bool) (P : Const) (dt : ℝ) (D : Nat → M9) (old : Fields) (new : Fields)
    (l : List Nat) : Outcome Fields :=
  l.foldlM (fun f p => do
    let o ← radialReturn P dt (D p) (old.stress p) (old.eqps p)
    .ok (f.put early p o)) new

/-- Is the rule the saturating one?
Models
src/materials/Peridigm_IsotropicHardeningPlasticBondAssociatedCorrespondenceMaterial.cpp:241, 282. -/
def Rule.isSaturation : Rule → Bool
  | .powerLaw _ _ _ => false
  | .saturation _ _ _ _ => true

/-- The fields of the material. -/
structure MatState where
  nodes : Fields
  bonds : Fields

/-- `computeCauchyStress`: first the points, then the bonds.
Models
src/materials/Peridigm_IsotropicHardeningPlasticBondAssociatedCorrespondenceMaterial.cpp:138-325. -/
def computeCauchyStress (P : Const) (dt : ℝ) (nodeRate bondRate : Nat → M9) (n : Nat) (l : List Nat)
    (old new : MatState) : Outcome MatState := do
  let nodes ← updateAll false P dt nodeRate old.nodes new.nodes (List.range n)
  let visited ← visitedBonds n l
  let bonds ← updateAll P.rule.isSaturation P dt bondRate old.bonds new.bonds (visited.map (·.b))
  .ok ⟨nodes, bonds⟩

/-- All zeros.
Models
src/materials/Peridigm_IsotropicHardeningPlasticBondAssociatedCorrespondenceMaterial.cpp:111-135, with the
stresses set to zero by src/materials/Peridigm_BondAssociatedCorrespondenceMaterial.cpp:423-424, 444-461. -/
def zeroFields : Fields := ⟨fun _ => zero, fun _ => 0, fun _ => 0, fun _ => 0⟩

/-- The fields for step N+1 before the next step, when those of step N are `r`: the stress and the plastic
strain have two states, which are exchanged, the other fields one.
Models the effect of src/core/Peridigm_DataManager.hpp:159-175 (see `Verif.Data`) on the fields of
src/materials/Peridigm_IsotropicHardeningPlasticBondAssociatedCorrespondenceMaterial.cpp:89-99. -/
def Fields.swap (r old : Fields) : Fields := { r with stress := old.stress, eqps := old.eqps }

/-- The parameters of the hardening rule, as found in the input. -/
structure HardeningParams where
  rule : String
  params : String → Option ℝ

/-- The part of the constructor that reads the hardening rule; a missing parameter throws.
Models
src/materials/Peridigm_IsotropicHardeningPlasticBondAssociatedCorrespondenceMaterial.cpp:68-86. -/
def readRule (h : HardeningParams) : Outcome Rule :=
  let get := fun k => match h.params k with
    | some v => Outcome.ok v
    | none => .fail .runtimeError
  if h.rule = "Power-law" then do
    let y ← get "Yield Stress"
    let c ← get "Hardening Characteristic Strain"
    let n ← get "Hardening Exponent"
    .ok (.powerLaw y c n)
  else if h.rule = "Saturation type exponential" then do
    let y0 ← get "Initial Yield Stress"
    let ys ← get "Saturated Yield Stress"
    let k ← get "Exponential Constant"
    let lin ← get "Linear Constant"
    .ok (.saturation y0 ys k lin)
  else .fail .runtimeError

end Verif.Return
