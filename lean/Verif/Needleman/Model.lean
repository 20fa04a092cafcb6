import Verif.Correspondence.StressModel
import Verif.Return.Model

/-!
# The viscoplastic correspondence material (model)

Models `updateElasticViscoplasticCauchyStress` and `ViscoplasticNeedlemanYieldFunction`
(src/materials/viscoplastic_needleman_correspondence.cxx:56-408) and
src/materials/Peridigm_ViscoPlasticNeedlemanCorrespondenceMaterial.cpp, for the double instantiation over
the reals.  `ViscoplasticNeedlemanFindRoot` (the same file, 411-560) is never called and is not modelled.

Simplifications: divisions by zero and powers of negative numbers are undefined.  The message that is
printed when the bisection gives up is the flag `converged = false`.
-/

noncomputable section

namespace Verif.Needleman

open Verif Verif.Neigh Verif.Mech Verif.Tensor Verif.Correspondence
open scoped Classical

/-- The constants of the material.
Models src/materials/Peridigm_ViscoPlasticNeedlemanCorrespondenceMaterial.cpp:65-78. -/
structure Const where
  bulk : ℝ
  shear : ℝ
  yield : ℝ
  strainExp : ℝ
  rateExp : ℝ
  refRate : ℝ
  ref0 : ℝ
  ref1 : ℝ
  flaw : Option Flaw

/-- `ViscoplasticNeedlemanYieldFunction`.
Models src/materials/viscoplastic_needleman_correspondence.cxx:388-408. -/
def yieldFunction (P : Const) (dt yield lambda eqps : ℝ) : Outcome ℝ :=
  if P.ref0 = 0 ∨ P.ref1 = 0 ∨ dt = 0 ∨ P.refRate = 0 then .ub else do
    let h ← Return.pow (1 + eqps / P.ref0) P.strainExp
    let r ← Return.pow (Real.sqrt (2 / 3) * lambda / dt / P.refRate) P.rateExp
    .ok (yield * h / (1 + (eqps / P.ref1) ^ 2) * r)

/-- `fb` and `fc`: `e` is `scalarDeviatoricStrainInc`, `magN` is `deviatoricStressMagnitudeN`.
Models src/materials/viscoplastic_needleman_correspondence.cxx:246-252. -/
def residual (P : Const) (dt yield e magN eqps x : ℝ) : Outcome ℝ := do
  let y ← yieldFunction P dt yield x (eqps + x)
  .ok (e - x - 1 / 2 / P.shear * (Real.sqrt (2 / 3) * y - magN))

/-- What the bisection leaves. -/
structure Root where
  /-- `deltaLambda` -/
  value : ℝ
  /-- no message was printed -/
  converged : Bool

/-- The new end points of the interval.
Models src/materials/viscoplastic_needleman_correspondence.cxx:246-262. -/
def halve (f : ℝ → Outcome ℝ) (a b c : ℝ) : Outcome (ℝ × ℝ) := do
  let fb ← f b
  let fc ← f c
  .ok (if 0 < fb ∧ 0 < fc then (a, c) else if fb < 0 ∧ fc < 0 then (a, c) else (c, b))

/-- The bisection with the number of passes left.
Models src/materials/viscoplastic_needleman_correspondence.cxx:244-277. -/
def bisect (f : ℝ → Outcome ℝ) : Nat → ℝ → ℝ → ℝ → Outcome Root
  | 0, _, _, c => .ok ⟨c, false⟩
  | n + 1, a, b, c => do
    let ab ← halve f a b c
    let c' := (ab.1 + ab.2) / 2
    if |c'| = 0 then .ub
    else if |c' - c| / |c'| < 1 / 10 ^ 6 then .ok ⟨c', true⟩
    else bisect f n ab.1 ab.2 c'

/-- The number of passes.
Models src/materials/viscoplastic_needleman_correspondence.cxx:244. -/
def maxPasses : Nat := 100000

/-- `deltaLambda` for deviatoric strain increment `e`, deviatoric trial stress `S` and deviatoric stress
`SN` of step N.
Models src/materials/viscoplastic_needleman_correspondence.cxx:203-277. -/
def search (P : Const) (dt yield : ℝ) (e S SN : M9) (eqps : ℝ) : Outcome Root :=
  bisect (residual P dt yield (contract S e / magnitude S) (Real.sqrt (contract SN SN)) eqps)
    maxPasses 0 1 ((0 + 1) / 2)

/-- One point, given the reduced yield stress.
Models src/materials/viscoplastic_needleman_correspondence.cxx:127-172, 189-384. -/
def point (P : Const) (yield dt : ℝ) (D sigma : M9) (eqps : ℝ) : Outcome PlasticOut :=
  let t := trialStress P.bulk P.shear dt D sigma
  let e := devStrain dt D
  if misesOf (devStress t) < yield then .ok ⟨t, misesOf (devStress t), eqps⟩
  else if P.shear = 0 then .ub
  else do
    let r ← search P dt yield e (devStress t) (devStress sigma) eqps
    let y ← yieldFunction P dt yield r.value (eqps + Real.sqrt (2 / 3) * r.value)
    if y < misesOf (devStress t) then .ok (plasticOut P.shear y e t sigma eqps)
    else .ok ⟨t, misesOf (devStress t), eqps⟩

/-- One point with coordinates `x`.
Models src/materials/viscoplastic_needleman_correspondence.cxx:127-384. -/
def update (P : Const) (x : V3) (dt : ℝ) (D sigma : M9) (eqps : ℝ) : Outcome PlasticOut := do
  let y ← reducedYield P.yield P.flaw x
  point P y dt D sigma eqps

/-- The fields of the material: `Unrotated_Cauchy_Stress`, `Von_Mises_Stress`,
`Equivalent_Plastic_Strain`.
Models src/materials/Peridigm_ViscoPlasticNeedlemanCorrespondenceMaterial.cpp:84-87. -/
structure Fields where
  stress : Nat → M9
  mises : Nat → ℝ
  eqps : Nat → ℝ

/-- The results of a point put into the fields.
Models src/materials/viscoplastic_needleman_correspondence.cxx:122-125 with the assignments through the
pointers. -/
def Fields.put (f : Fields) (p : Nat) (o : PlasticOut) : Fields where
  stress := Function.update f.stress p o.stress
  mises := Function.update f.mises p o.mises
  eqps := Function.update f.eqps p o.eqps

/-- `computeCauchyStress` for the first `n` points.
Models src/materials/Peridigm_ViscoPlasticNeedlemanCorrespondenceMaterial.cpp:119-164 with the loop at
src/materials/viscoplastic_needleman_correspondence.cxx:122-384. -/
def computeCauchyStress (P : Const) (x : Nat → V3) (dt : ℝ) (D : Nat → M9) (n : Nat) (old new : Fields) :
    Outcome Fields :=
  (List.range n).foldlM (fun f p => do
    let o ← update P (x p) dt (D p) (old.stress p) (old.eqps p)
    .ok (f.put p o)) new

/-- The fields after `initialize`.
Models src/materials/Peridigm_ViscoPlasticNeedlemanCorrespondenceMaterial.cpp:100-117 with
src/materials/Peridigm_CorrespondenceMaterial.cpp:133-134 for the stresses. -/
def zeroFields : Fields := ⟨fun _ => zero, fun _ => 0, fun _ => 0⟩

/-- The fields for step N+1 before the next step: stress and plastic strain have two states, which are
exchanged.
Models the effect of src/core/Peridigm_DataManager.hpp:159-175 (see `Verif.Data`) on the fields of
src/materials/Peridigm_ViscoPlasticNeedlemanCorrespondenceMaterial.cpp:84-87. -/
def Fields.swap (r old : Fields) : Fields := { r with stress := old.stress, eqps := old.eqps }

/-- The material parameters, as found in the input. -/
structure Input where
  real : String → Option ℝ
  /-- `Enable Flaw`, if given -/
  enableFlaw : Option Bool

/-- The part of the constructor that reads the parameters of the yield surface, with the elastic moduli
already known; a missing parameter throws.
Models src/materials/Peridigm_ViscoPlasticNeedlemanCorrespondenceMaterial.cpp:56-78. -/
def read (bulk shear : ℝ) (p : Input) : Outcome Const :=
  let get := fun k => match p.real k with
    | some v => Outcome.ok v
    | none => .fail .runtimeError
  if (p.real "Thermal Expansion Coefficient").isSome then .fail .runtimeError
  else do
    let y ← get "Yield Stress"
    let n ← get "Strain Hardening Exponent"
    let m ← get "Rate Hardening Exponent"
    let r ← get "Reference Strain Rate"
    let e0 ← get "Reference Strain 0"
    let e1 ← get "Reference Strain 1"
    match p.enableFlaw with
    | none => .ok ⟨bulk, shear, y, n, m, r, e0, e1, none⟩
    | some on => do
      let fx ← get "Flaw Location X"
      let fy ← get "Flaw Location Y"
      let fz ← get "Flaw Location Z"
      let s ← get "Flaw Size"
      let g ← get "Flaw Magnitude"
      .ok ⟨bulk, shear, y, n, m, r, e0, e1, if on then some ⟨![fx, fy, fz], s, g⟩ else none⟩

end Verif.Needleman
