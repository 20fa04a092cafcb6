import Verif.Correspondence.Model
import Mathlib.Analysis.SpecialFunctions.Exp

/-!
# Correspondence materials: elastic, perfectly plastic and linearly hardening stress updates

Models `updateElasticCauchyStress` (src/materials/elastic_correspondence.cxx:56-116),
`updateElasticPerfectlyPlasticCauchyStress` (src/materials/elastic_plastic_correspondence.cxx:56-239) and
`updateElasticIsotropicHardeningPlasticCauchyStress`
(src/materials/isotropic_hardening_correspondence.cxx:56-326), all for the double instantiation over the
reals.  One point at a time: the loops treat the points separately.  Divisions by zero are undefined.
-/

noncomputable section

namespace Verif.Correspondence

open Verif Verif.Neigh Verif.Mech Verif.Tensor
open scoped Classical

/-- All entries times a number.
Models src/materials/elastic_correspondence.cxx:87-88. -/
def scaled (a : M9) (c : ℝ) : M9 :=
  ⟨a.xx * c, a.xy * c, a.xz * c, a.yx * c, a.yy * c, a.yz * c, a.zx * c, a.zy * c, a.zz * c⟩

/-- A number added to the diagonal.
Models src/materials/elastic_correspondence.cxx:96-98, 111-113. -/
def diagAdd (a : M9) (c : ℝ) : M9 := { a with xx := a.xx + c, yy := a.yy + c, zz := a.zz + c }

/-- Sum of the diagonal.
Models src/materials/elastic_correspondence.cxx:93. -/
def diagSum (a : M9) : ℝ := a.xx + a.yy + a.zz

/-- `deviatoricStrainInc`.
Models src/materials/elastic_correspondence.cxx:86-98,
src/materials/elastic_plastic_correspondence.cxx:102-114 and
src/materials/isotropic_hardening_correspondence.cxx:120-132. -/
def devStrain (dt : ℝ) (D : M9) : M9 :=
  diagAdd (scaled D dt) (-(diagSum (scaled D dt) / 3))

/-- The elastic stress for a deviatoric strain increment and a dilatation increment.
Models src/materials/elastic_correspondence.cxx:107-113,
src/materials/elastic_plastic_correspondence.cxx:116-122 and
src/materials/isotropic_hardening_correspondence.cxx:134-140. -/
def elasticStress (bulk shear dilatation : ℝ) (e sigma : M9) : M9 :=
  diagAdd (addScaled sigma 1 (scaled (scaled e 2) shear)) (bulk * dilatation)

/-- `updateElasticCauchyStress` at one point; `thermal` is the thermal expansion coefficient with the
temperature changes of steps N and N+1, if thermal strains are applied.
Models src/materials/elastic_correspondence.cxx:83-115. -/
def elasticPoint (bulk shear dt : ℝ) (thermal : Option (ℝ × ℝ × ℝ)) (D sigma : M9) : M9 :=
  elasticStress bulk shear
    (match thermal with
      | some (alpha, tN, tNP1) => diagSum (scaled D dt) - 3 * (alpha * tNP1 - alpha * tN)
      | none => diagSum (scaled D dt))
    (devStrain dt D) sigma

/-- `ElasticCorrespondenceMaterial` without thermal strains.  The update is given for all points; only
those of the block are looked at.
Models src/materials/Peridigm_ElasticCorrespondenceMaterial.cpp:90-121. -/
def elasticMaterial (bulk shear hourglassCoefficient : ℝ) : Material where
  bulk := bulk
  hourglassCoefficient := hourglassCoefficient
  update := fun dt D s => .ok fun p => elasticPoint bulk shear dt none (D p) (s p)

/-! ### Plasticity -/

/-- `sphericalStress`.
Models src/materials/elastic_plastic_correspondence.cxx:124, 191 and
src/materials/isotropic_hardening_correspondence.cxx:142, 204, 278. -/
def spherical (a : M9) : ℝ := (a.xx + a.yy + a.zz) / 3

/-- `deviatoricStress`.
Models src/materials/elastic_plastic_correspondence.cxx:127-132, 193-198 and
src/materials/isotropic_hardening_correspondence.cxx:145-150, 206-211, 280-285. -/
def devStress (a : M9) : M9 := diagAdd a (-spherical a)

/-- The sum of the products of the entries.
Models src/materials/elastic_plastic_correspondence.cxx:134-140, 169-174, 200-205, 223-228 and
src/materials/isotropic_hardening_correspondence.cxx:152-158, 192-198, 213-219, 256-261, 287-292,
310-315. -/
def contract (a b : M9) : ℝ :=
  0 + a.xx * b.xx + a.xy * b.xy + a.xz * b.xz + a.yx * b.yx + a.yy * b.yy + a.yz * b.yz + a.zx * b.zx +
    a.zy * b.zy + a.zz * b.zz

/-- `vmStress` from the deviatoric stress.
Models src/materials/elastic_plastic_correspondence.cxx:142, 176 and
src/materials/isotropic_hardening_correspondence.cxx:163, 263. -/
def misesOf (S : M9) : ℝ := Real.sqrt (3 / 2 * contract S S)

/-- `deviatoricStressMagnitude`.
Models src/materials/elastic_plastic_correspondence.cxx:151, 209 and
src/materials/isotropic_hardening_correspondence.cxx:161, 296. -/
def magnitude (S : M9) : ℝ := max (1 / 10 ^ 20) (Real.sqrt (contract S S))

/-- The deviatoric stress returned to the yield surface.
Models src/materials/elastic_plastic_correspondence.cxx:154-158 and
src/materials/isotropic_hardening_correspondence.cxx:240-244. -/
def returned (S : M9) (yield : ℝ) : M9 :=
  scaled S (Real.sqrt (2 / 3) * yield / magnitude S)

/-- `tempA`, with deviatoric stresses `S'` of step N+1 and `SN` of step N.
Models src/materials/elastic_plastic_correspondence.cxx:213 and
src/materials/isotropic_hardening_correspondence.cxx:300. -/
def plasticIncrement (shear : ℝ) (e S' SN : M9) : M9 :=
  sub9 e (scaled (scaled (sub9 S' SN) (1 / 2)) (1 / shear))

/-- `tempB`; `mag` is the magnitude of the trial stress.
Models src/materials/elastic_plastic_correspondence.cxx:216-217 and
src/materials/isotropic_hardening_correspondence.cxx:303-304. -/
def meanDirection (mag : ℝ) (S' SN : M9) : M9 :=
  scaled (addScaled (scaled S' (1 / mag)) 1 (scaled SN (1 / magnitude SN))) (1 / 2)

/-- The increment of `eqps`.
Models src/materials/elastic_plastic_correspondence.cxx:211-231 and
src/materials/isotropic_hardening_correspondence.cxx:298-318. -/
def eqpsIncrement (shear : ℝ) (e S S' SN : M9) : ℝ :=
  max 0 (Real.sqrt (2 / 3) * contract (plasticIncrement shear e S' SN) (meanDirection (magnitude S) S' SN))

/-- `stressNP1`, `vmStress`, `eqpsNP1` of a point. -/
structure PlasticOut where
  stress : M9
  mises : ℝ
  eqps : ℝ

/-- The trial stress.
Models src/materials/elastic_plastic_correspondence.cxx:102-122 and
src/materials/isotropic_hardening_correspondence.cxx:120-140. -/
def trialStress (bulk shear dt : ℝ) (D sigma : M9) : M9 :=
  elasticStress bulk shear (diagSum (scaled D dt)) (devStrain dt D) sigma

/-- What the return to the yield value `yield` leaves of trial stress `t`.
Models src/materials/elastic_plastic_correspondence.cxx:150-231 and
src/materials/isotropic_hardening_correspondence.cxx:239-318. -/
def plasticOut (shear yield : ℝ) (e t sigma : M9) (eqps : ℝ) : PlasticOut where
  stress := diagAdd (returned (devStress t) yield) (spherical t)
  mises := misesOf (returned (devStress t) yield)
  eqps := eqps + eqpsIncrement shear e (devStress t) (returned (devStress t) yield) (devStress sigma)

/-- `updateElasticPerfectlyPlasticCauchyStress` at one point.
Models src/materials/elastic_plastic_correspondence.cxx:99-238. -/
def perfectPoint (bulk shear yield dt : ℝ) (D sigma : M9) (eqps : ℝ) : Outcome PlasticOut :=
  let t := trialStress bulk shear dt D sigma
  if yield < misesOf (devStress t) then
    if shear = 0 then .ub else .ok (plasticOut shear yield (devStrain dt D) t sigma eqps)
  else .ok ⟨t, misesOf (devStress t), eqps⟩

/-- The flaw parameters. -/
structure Flaw where
  location : V3
  size : ℝ
  magnitude : ℝ

/-- `reducedYieldStress` at a point with coordinates `x`.
Models src/materials/isotropic_hardening_correspondence.cxx:165-178. -/
def reducedYield (yield : ℝ) (flaw : Option Flaw) (x : V3) : Outcome ℝ :=
  match flaw with
  | some f => if f.size = 0 then .ub else
      .ok (yield * (1 - f.magnitude * Real.exp (((-(x 0 - f.location 0)) * (x 0 - f.location 0) -
        (x 1 - f.location 1) * (x 1 - f.location 1) - (x 2 - f.location 2) * (x 2 - f.location 2)) /
        f.size / f.size)))
  | none => .ok yield

/-- `deltaLambda`, with deviatoric trial stress `S`, strain increment `e` and deviatoric stress `SN`.
Models src/materials/isotropic_hardening_correspondence.cxx:192-226. -/
def deltaLambda (shear hard yield : ℝ) (e S SN : M9) : ℝ :=
  (6 * (contract S e / magnitude S) * shear + 3 * Real.sqrt (contract SN SN) - Real.sqrt 6 * yield) /
    (2 * (hard + 3 * shear))

/-- `yieldFunctionVal`.
Models src/materials/isotropic_hardening_correspondence.cxx:229-233. -/
def yieldValue (shear hard yield eqps : ℝ) (e S SN : M9) : ℝ :=
  yield + hard * (eqps + Real.sqrt (2 / 3) * deltaLambda shear hard yield e S SN)

/-- `updateElasticIsotropicHardeningPlasticCauchyStress` at one point, given the reduced yield stress.
Models src/materials/isotropic_hardening_correspondence.cxx:116-163, 180-325. -/
def hardeningPoint (bulk shear hard yield dt : ℝ) (D sigma : M9) (eqps : ℝ) : Outcome PlasticOut :=
  let t := trialStress bulk shear dt D sigma
  if misesOf (devStress t) < yield then .ok ⟨t, misesOf (devStress t), eqps⟩
  else if 2 * (hard + 3 * shear) = 0 then .ub
  else if yieldValue shear hard yield eqps (devStrain dt D) (devStress t) (devStress sigma) <
      misesOf (devStress t) then
    if shear = 0 then .ub
    else .ok (plasticOut shear
      (yieldValue shear hard yield eqps (devStrain dt D) (devStress t) (devStress sigma))
      (devStrain dt D) t sigma eqps)
  else .ok ⟨t, misesOf (devStress t), eqps⟩

/-- The same with the reduction of the yield stress around a flaw.
Models src/materials/isotropic_hardening_correspondence.cxx:56-326. -/
def hardeningUpdate (bulk shear hard yield : ℝ) (flaw : Option Flaw) (x : V3) (dt : ℝ) (D sigma : M9)
    (eqps : ℝ) : Outcome PlasticOut := do
  let y ← reducedYield yield flaw x
  hardeningPoint bulk shear hard y dt D sigma eqps

end Verif.Correspondence
