import Verif.Fad.Model

/-!
# The tangent of the elastic-plastic material by automatic differentiation (model)

Models `ElasticPlasticMaterial::computeAutomaticDifferentiationJacobian` with the kernels `computeDilatation`,
`computeDeviatoricForceStateNorm` and `computeInternalForceIsotropicElasticPlastic` for the scalar type
`Sacado::Fad::DFad<double>`.

Simplifications: as in `Verif.Fad.Model`.  The new plastic variables that the kernel computes with derivatives are
dropped by the caller and left out.  There is no test for numbers that are not finite: they are added to the tangent, and
the model is undefined.
-/

noncomputable section

namespace Verif.Fad

open Verif Verif.Neigh Verif.Mech Verif.Tangent
open scoped Classical

/-- The material and the data of all points and bonds.  `edp` is the deviatoric plastic extension of step N, by point
and place of the neighbor; `planar` the thickness of a planar problem. -/
structure PlasticSolid extends Solid where
  yieldStress : ℝ
  planar : Option ℝ
  edp : Nat → Nat → ℝ

/-- The constants of the kernel.  Models src/materials/Peridigm_ElasticPlasticMaterial.cpp:313-318. -/
def PlasticSolid.const (S : PlasticSolid) : PlasticConst := ⟨S.K, S.mu, S.yieldStress, S.planar⟩

/-- The data of the points `gids` in the temporary data manager; this material has no thermal strains.
Models src/materials/Peridigm_ElasticPlasticMaterial.cpp:235-250 and 270-280. -/
def PlasticSolid.local (S : PlasticSolid) (gids : List Nat) (y : Nat → ℝ) : Config :=
  { S.toSolid.hood gids y with thermal := none }

/-- The force density of the material in the neighborhood of one point, with `double`.
Models src/materials/Peridigm_ElasticPlasticMaterial.cpp:134-180 as called from
src/materials/Peridigm_Material.cpp:243, 253. -/
def plasticKernel (S : PlasticSolid) : Kernel := fun gids y _ => do
  let r ← plasticMaterial (S.local gids y) S.const 1 (tempList (gids.length - 1)) (fun _ => 0) (S.edp (gids.getD 0 0)) (fun _ => 0)
    ⟨fun _ => 0, fun _ => 0, fun _ _ => 0⟩
  .ok fun k => r.2.F (k / 3) ⟨k % 3, Nat.mod_lt _ (by omega)⟩

/-! ### The kernels with derivatives -/

/-- `ed - edpN`.  Models src/materials/elastic_plastic.cxx:93-98 and 217-222. -/
def trialExtension (C : Config) (edp : Nat → ℝ) (theta dY : Num) (b : Bond) : Num :=
  ((dY.minus (C.zeta b)) - (theta.scale (C.zeta b)).scale (1 / 3)).minus (edp b.b)

/-- The sum under the root in `computeDeviatoricForceStateNorm`.
Models src/materials/elastic_plastic.cxx:70-111. -/
def normSquared (C : Config) (Y : Nat → Num3) (edp : Nat → ℝ) (alpha : ℝ) (theta : Num) : List Bond → Num → Option Num
  | [], n => some n
  | b :: bs, n => do
    let dY ← bondLength Y b
    let tdTrial := (trialExtension C edp theta dY b).scale ((1 - C.damage b.b) * alpha * 1)
    normSquared C Y edp alpha theta bs (n + (tdTrial * tdTrial).scale (C.v b.j))

/-- The deviatoric force state of a bond; `tdNorm` is `none` in an elastic step.
Models src/materials/elastic_plastic.cxx:227-247. -/
def deviatoricForce (yv alpha : ℝ) (tdNorm : Option Num) (e : Num) : Option Num :=
  let tdTrial := e.scale (alpha * 1)
  match tdNorm with
  | none => some tdTrial
  | some n => (tdTrial.scale (Real.sqrt (2 * yv))).div n

/-- The pair force of a bond.  Models src/materials/elastic_plastic.cxx:201-270. -/
def plasticPair (C : Config) (P : PlasticConst) (Y : Nat → Num3) (edp : Nat → ℝ) (yv : ℝ) (theta : Num) (tdNorm : Option Num)
    (b : Bond) : Option Num3 := do
  let dY ← bondLength Y b
  let td ← deviatoricForce yv (15 * P.mu / C.m b.i) tdNorm (trialExtension C edp theta dY b)
  let c := ((theta.scale (3 * P.K)).scale 1).scale (1 / C.m b.i)
  let ti := c.scale (C.zeta b)
  let t := (ti + td.scale (1 - C.damage b.b)).scale (1 - C.damage b.b)
  let fx ← (t * bondVector Y b 0).div dY
  let fy ← (t * bondVector Y b 1).div dY
  let fz ← (t * bondVector Y b 2).div dY
  some ![fx, fy, fz]

/-- The loop over the bonds.  Models src/materials/elastic_plastic.cxx:201-278. -/
def plasticForces (C : Config) (P : PlasticConst) (Y : Nat → Num3) (edp : Nat → ℝ) (yv : ℝ) (theta : Num) (tdNorm : Option Num) :
    List Bond → (Nat → Num3) → Option (Nat → Num3)
  | [], F => some F
  | b :: bs, F => do
    let f ← plasticPair C P Y edp yv theta tdNorm b
    plasticForces C P Y edp yv theta tdNorm bs (addForce C F b f)

/-- The norm of the trial force state if the step is plastic.  The comparison looks at the value only; in an elastic step the
derivatives of the norm, which are not finite where the trial state vanishes, are not used.
Models src/materials/elastic_plastic.cxx:179-199. -/
def plasticStep (yv : ℝ) (norm2 : Num) : Option (Option Num) :=
  if Real.sqrt norm2.val * Real.sqrt norm2.val / 2 - yv > 0 then do
    let n ← norm2.sqrt
    some (some n)
  else some none

/-- The force density in the neighborhood of one point, with derivatives.
Models src/materials/Peridigm_ElasticPlasticMaterial.cpp:282-318. -/
def plasticAd (S : PlasticSolid) : AdKernel := fun gids y =>
  let C := S.local gids y
  match visitedBonds 1 (tempList (gids.length - 1)), yieldValue S.const S.horizon with
  | .ok bs, .ok yv =>
    if C.m 0 = 0 then none
    else do
      let theta ← dilatation C (independent y) bs (Num.const 0)
      let norm2 ← normSquared C (independent y) (S.edp (gids.getD 0 0)) (15 * S.mu / C.m 0) theta bs (Num.const 0)
      let tdNorm ← plasticStep yv norm2
      let F ← plasticForces C S.const (independent y) (S.edp (gids.getD 0 0)) yv theta tdNorm bs fun _ _ => Num.const 0
      some fun k => F (k / 3) ⟨k % 3, Nat.mod_lt _ (by omega)⟩
  | _, _ => none

/-! ### The tangent -/

/-- The local matrix of one neighborhood.  Numbers that are not finite are not noticed.
Models src/materials/Peridigm_ElasticPlasticMaterial.cpp:217-325. -/
def plasticLocal (A : AdKernel) (F : Fields) (gids : List Nat) (S : Scratch) : Outcome (Scratch × (Nat → Nat → ℝ)) := do
  let _ ← bondMap gids
  match A gids (gather 3 gids F.y) with
  | none => .ub
  | some f => do
    let S1 ← writeAll (3 * gids.length) f (gather 1 gids F.vol) (S.fit (3 * gids.length))
    let L ← entries S1 (3 * gids.length)
    .ok (S1, L)

/-- One pass of the loop over the points; always the full matrix.
Models src/materials/Peridigm_ElasticPlasticMaterial.cpp:217-328. -/
def plasticPoint (A : AdKernel) (F : Fields) (rows : Nat → Prop) (s : Scratch × Sparse) (gids : List Nat) :
    Outcome (Scratch × Sparse) := do
  let SL ← plasticLocal A F gids s.1
  let M ← addValues rows (dofIds 3 gids) SL.2 s.2
  .ok (SL.1, M)

/-- `computeAutomaticDifferentiationJacobian` on one processor.
Models src/materials/Peridigm_ElasticPlasticMaterial.cpp:201-330. -/
def plasticOne (A : AdKernel) (F : Fields) (S : Scratch) (pr : Proc) (M : Sparse) : Outcome Sparse := do
  let hs ← pr.hoods
  let s ← hs.foldlM (plasticPoint A F (pr.rows 3)) (S, M)
  .ok s.2

/-- The tangent from all processors.
Models src/core/Peridigm_ModelEvaluator.cpp:133-160 and src/core/Peridigm.cpp:4322-4326. -/
def plasticTangent (A : AdKernel) (F : Fields) (S : Scratch) : List Proc → Sparse → Outcome Sparse
  | [], M => .ok M
  | pr :: prs, M => do
    let M1 ← plasticOne A F S pr M
    plasticTangent A F S prs M1

/-- `ElasticPlasticMaterial::computeJacobian`; `ad` is the parameter "Apply Automatic Differentiation Jacobian", true if it
is not given.  The kind of tangent that is asked for is not handed on.
Models src/materials/Peridigm_ElasticPlasticMaterial.cpp:64, 78-79 and 182-199. -/
def elasticPlasticJacobian (ad : Option Bool) (P : Settings) (kind : Kind) (E : PlasticSolid) (Q : FluxKernel) (F : Fields)
    (S : Scratch) (prs : List Proc) (M : Sparse) : Outcome Sparse :=
  if ad.getD true then plasticTangent (plasticAd E) F S prs M
  else elasticPlasticTangent P kind (plasticKernel E) Q F S prs M

end Verif.Fad
