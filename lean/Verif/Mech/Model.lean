import Verif.Neigh.Model
import Mathlib.Analysis.Real.Sqrt
import Mathlib.Analysis.SpecialFunctions.Exp
import Mathlib.Analysis.Real.Pi.Bounds

/-!
# Model of the material kernels

Models the force kernels of /repo/src/materials/elastic.cxx, elastic_bond_based.cxx,
elastic_plastic.cxx, viscoelastic.cxx, linear_lps_pv.cxx, elastic_pv.cxx and the dilatation and weighted
volume of /repo/src/materials/material_utilities.cxx.

Numbers are exact reals.  A division by zero, which in the code produces an infinity or a NaN that
spreads through the results, is reported as `ub`; so a kernel result `ok F` means that every division
carried out had a non-zero denominator.

Arrays of point data are functions from local ids, arrays of bond data functions from bond positions.
That the ids in the neighborhood list lie within the overlap arrays is property C10; the walk over the
neighborhood list itself is `Verif.Neigh.visitedBonds`, which does report reads outside the list.
The template parameter `ScalarT` is `double` here.
-/

noncomputable section

namespace Verif.Mech

open Verif Verif.Neigh
open scoped Classical

/-- A point or vector of three coordinates. -/
abbrev V3 := Fin 3 → ℝ

/-- `sqrt(dx*dx+dy*dy+dz*dz)`, e.g. src/materials/elastic.cxx:109. -/
def len (d : V3) : ℝ := Real.sqrt (d 0 * d 0 + d 1 * d 1 + d 2 * d 2)

/-- Data common to the kernels of one block on one processor.
`thermal` is the pair of `thermalExpansionCoefficient` and `deltaTemperature`, `none` if the pointer
`deltaTemperature` is null. -/
structure Config where
  x : Nat → V3
  y : Nat → V3
  v : Nat → ℝ
  m : Nat → ℝ
  damage : Nat → ℝ
  omega : ℝ → ℝ → ℝ
  horizon : ℝ
  thermal : Option (ℝ × (Nat → ℝ))

namespace Config

variable (C : Config)

/-- `zeta`, src/materials/elastic.cxx:106-109. -/
def zeta (b : Bond) : ℝ := len (C.x b.j - C.x b.i)

/-- `Y_dx, Y_dy, Y_dz`, src/materials/elastic.cxx:110-112. -/
def yd (b : Bond) : V3 := C.y b.j - C.y b.i

/-- `dY`, src/materials/elastic.cxx:113. -/
def dY (b : Bond) : ℝ := len (C.yd b)

/-- `e`, src/materials/elastic.cxx:114-116 and src/materials/material_utilities.cxx:279-282. -/
def ext (b : Bond) : ℝ :=
  match C.thermal with
  | none => C.dY b - C.zeta b
  | some (a, dT) => C.dY b - C.zeta b - a * dT b.i * C.zeta b

/-- The influence function of a bond, src/materials/elastic.cxx:117. -/
def om (b : Bond) : ℝ := C.omega (C.zeta b) C.horizon

end Config

/-! ### Weighted volume and dilatation -/

/-- `computeWeightedVolume` for one point with neighbor ids `ns`,
src/materials/material_utilities.cxx:161-188. -/
def weightedVolumeAt (C : Config) (p : Nat) (ns : List Nat) : ℝ :=
  ns.foldl (fun m j =>
    let d := C.x j - C.x p
    let zetaSquared := d 0 * d 0 + d 1 * d 1 + d 2 * d 2
    m + C.omega (Real.sqrt zetaSquared) C.horizon * zetaSquared * C.v j) 0

/-- `computeWeightedVolume` for all owned points, src/materials/material_utilities.cxx:501-520; `pos` is
`neighPtr`, `p` the next point, `m` the array. -/
def weightedVolumeLoop (C : Config) (l : List Nat) : Nat → Nat → Nat → (Nat → ℝ) →
    Outcome (Nat → ℝ)
  | 0, _, _, m => .ok m
  | n + 1, p, pos, m =>
    match readAt l pos, neighborsAt l pos with
    | .ok k, .ok ns =>
      weightedVolumeLoop C l n (p + 1) (pos + (k + 1)) (Function.update m p (weightedVolumeAt C p ns))
    | .fail e, _ => .fail e
    | .ub, _ => .ub
    | _, .fail e => .fail e
    | _, .ub => .ub

/-- One addition to `*theta`, src/materials/material_utilities.cxx:284. -/
def dilatationTerm (C : Config) (b : Bond) : Outcome ℝ :=
  if C.m b.i = 0 then .ub
  else .ok (3 * C.om b * (1 - C.damage b.b) * C.zeta b * C.ext b * C.v b.j / C.m b.i)

/-- The loop over bonds of `computeDilatation`, src/materials/material_utilities.cxx:265-285. -/
def dilatationLoop (C : Config) : List Bond → (Nat → ℝ) → Outcome (Nat → ℝ)
  | [], th => .ok th
  | b :: bs, th =>
    match dilatationTerm C b with
    | .ok t => dilatationLoop C bs (Function.update th b.i (th b.i + t))
    | .fail e => .fail e
    | .ub => .ub

/-- `computeDilatation`, src/materials/material_utilities.cxx:235-288.  The entry of each owned point is
set to zero when its turn comes (line 264); as the loop of a point changes only that entry, the model
sets all of them at the beginning. -/
def dilatation (C : Config) (n : Nat) (l : List Nat) (th : Nat → ℝ) : Outcome (Nat → ℝ) :=
  match visitedBonds n l with
  | .ok bs => dilatationLoop C bs fun p => if p < n then 0 else th p
  | .fail e => .fail e
  | .ub => .ub

/-! ### The scatter loop shared by the kernels -/

/-- Adding the pair force of a bond to both ends: src/materials/elastic.cxx:125-130.  `vi` is the factor
for the neighbor (`selfCellVolume`), `vj` that for the point (`cellVolume`). -/
def scatterStep (vi vj : Bond → ℝ) (F : Nat → V3) (b : Bond) (f : V3) : Nat → V3 :=
  let F1 := Function.update F b.i (fun c => F b.i c + f c * vj b)
  Function.update F1 b.j (fun c => F1 b.j c - f c * vi b)

/-- The loop over the bonds of a kernel whose pair force is `f`. -/
def scatter (vi vj : Bond → ℝ) (f : Bond → Outcome V3) : List Bond → (Nat → V3) → Outcome (Nat → V3)
  | [], F => .ok F
  | b :: bs, F =>
    match f b with
    | .ok g => scatter vi vj f bs (scatterStep vi vj F b g)
    | .fail e => .fail e
    | .ub => .ub

/-- A kernel: the loop over all bonds, beginning with the force array `F`. -/
def kernel (vi vj : Bond → ℝ) (f : Bond → Outcome V3) (n : Nat) (l : List Nat) (F : Nat → V3) :
    Outcome (Nat → V3) :=
  match visitedBonds n l with
  | .ok bs => scatter vi vj f bs F
  | .fail e => .fail e
  | .ub => .ub

/-- Cell volume of the point of a bond. -/
def selfVol (C : Config) (b : Bond) : ℝ := C.v b.i

/-- Cell volume of the neighbor of a bond. -/
def nbrVol (C : Config) (b : Bond) : ℝ := C.v b.j

/-- The last lines of every kernel, src/materials/elastic.cxx:121-123: a pair force of size `t` along the
deformed bond. -/
def along (C : Config) (b : Bond) (t : ℝ) : Outcome V3 :=
  if C.dY b = 0 then .ub else .ok fun c => t * C.yd b c / C.dY b

/-! ### State-based elastic material -/

/-- Pair force of `computeInternalForceLinearElastic`, src/materials/elastic.cxx:99-123. -/
def elasticBond (C : Config) (K mu : ℝ) (theta : Nat → ℝ) (b : Bond) : Outcome V3 :=
  if C.m b.i = 0 then .ub
  else
    let alpha := 15 * mu / C.m b.i
    let e := C.ext b
    let c1 := C.om b * theta b.i * (3 * K / C.m b.i - alpha / 3)
    let t := (1 - C.damage b.b) * (c1 * C.zeta b + (1 - C.damage b.b) * C.om b * alpha * e)
    along C b t

/-- `computeInternalForceLinearElastic`, src/materials/elastic.cxx:55-146, without the optional partial
stress. -/
def elasticForce (C : Config) (K mu : ℝ) (theta : Nat → ℝ) (n : Nat) (l : List Nat) (F : Nat → V3) :
    Outcome (Nat → V3) :=
  kernel (selfVol C) (nbrVol C) (elasticBond C K mu theta) n l F

/-- `ElasticMaterial::computeForce`, src/materials/Peridigm_ElasticMaterial.cpp:141-172: forces are zeroed,
then dilatation and force are computed. `th` is the previous content of the dilatation array. -/
def elasticMaterial (C : Config) (K mu : ℝ) (n : Nat) (l : List Nat) (th : Nat → ℝ) :
    Outcome ((Nat → ℝ) × (Nat → V3)) :=
  match dilatation C n l th with
  | .ok theta =>
    match elasticForce C K mu theta n l 0 with
    | .ok F => .ok (theta, F)
    | .fail e => .fail e
    | .ub => .ub
  | .fail e => .fail e
  | .ub => .ub

/-! ### Bond-based elastic material -/

/-- The micro-modulus, src/materials/elastic_bond_based.cxx:75-80; `planar` is the height if
`isPlaneStrainStress`. -/
def bondConstant (K horizon : ℝ) (planar : Option ℝ) : Outcome ℝ :=
  match planar with
  | some height =>
    if Real.pi * height * horizon * horizon * horizon = 0 then .ub
    else .ok (12 * K / (Real.pi * height * horizon * horizon * horizon))
  | none =>
    if Real.pi * horizon * horizon * horizon * horizon = 0 then .ub
    else .ok (18 * K / (Real.pi * horizon * horizon * horizon * horizon))

/-- Pair force of `computeInternalForceElasticBondBased`, src/materials/elastic_bond_based.cxx:95-114. -/
def bondBasedBond (C : Config) (constant : ℝ) (b : Bond) : Outcome V3 :=
  if C.zeta b = 0 then .ub
  else
    let stretch := (C.dY b - C.zeta b) / C.zeta b
    let t := 0.5 * (1 - C.damage b.b) * stretch * constant
    along C b t

/-- `computeInternalForceElasticBondBased`, src/materials/elastic_bond_based.cxx:55-124, called with zeroed
forces by `ElasticBondBasedMaterial::computeForce`
(src/materials/Peridigm_ElasticBondBasedMaterial.cpp:111-131). -/
def bondBasedMaterial (C : Config) (K : ℝ) (planar : Option ℝ) (n : Nat) (l : List Nat) :
    Outcome (Nat → V3) :=
  match bondConstant K C.horizon planar with
  | .ok constant => kernel (selfVol C) (nbrVol C) (bondBasedBond C constant) n l 0
  | .fail e => .fail e
  | .ub => .ub

/-! ### Elastic-plastic material -/

/-- Material constants of the elastic-plastic material; `planar` is the thickness if
`isPlanarProblem`. -/
structure PlasticConst where
  K : ℝ
  mu : ℝ
  yieldStress : ℝ
  planar : Option ℝ

/-- `yieldValue`, src/materials/elastic_plastic.cxx:151-153. -/
def yieldValue (P : PlasticConst) (delta : ℝ) : Outcome ℝ :=
  match P.planar with
  | none =>
    if delta ^ 5 = 0 then .ub
    else .ok (25 * P.yieldStress * P.yieldStress / 8 / Real.pi / delta ^ 5)
  | some thickness =>
    if thickness = 0 ∨ delta ^ 4 = 0 then .ub
    else .ok (225 / 3 * P.yieldStress * P.yieldStress / 8 / Real.pi / thickness / delta ^ 4)

/-- `ed`, src/materials/elastic_plastic.cxx:217 and 93. -/
def edState (C : Config) (theta : Nat → ℝ) (b : Bond) : ℝ :=
  C.dY b - C.zeta b - theta b.i * C.zeta b / 3

/-- `computeDeviatoricForceStateNorm`, src/materials/elastic_plastic.cxx:54-114, over the bonds `bs` of one
point; `OMEGA` is 1. -/
def deviatoricNorm (C : Config) (theta : Nat → ℝ) (edp : Nat → ℝ) (alpha : ℝ) (bs : List Bond) : ℝ :=
  Real.sqrt (bs.foldl (fun norm b =>
    let d := 1 - C.damage b.b
    let tdTrial := d * alpha * 1 * (edState C theta b - edp b.b)
    norm + tdTrial * tdTrial * C.v b.j) 0)

/-- What is decided per point: the norm of the trial state, and the plastic increment, `none` for an
elastic step (src/materials/elastic_plastic.cxx:179-199). -/
structure Flow where
  tdNorm : ℝ
  deltaLambda : Option ℝ

/-- `*lambdaNP1`, src/materials/elastic_plastic.cxx:196 and 198. -/
def Flow.newLambda (fl : Flow) (lambdaN : ℝ) : ℝ :=
  match fl.deltaLambda with
  | some dl => lambdaN + dl
  | none => lambdaN

/-- The yield decision for point `p` with bonds `bs`, src/materials/elastic_plastic.cxx:170-199. -/
def plasticFlow (C : Config) (P : PlasticConst) (yv : ℝ) (theta edpN : Nat → ℝ) (p : Nat)
    (bs : List Bond) : Outcome Flow :=
  if C.m p = 0 then .ub
  else
    let alpha := 15 * P.mu / C.m p
    let tdNorm := deviatoricNorm C theta edpN alpha bs
    let f := tdNorm * tdNorm / 2 - yv
    if f > 0 then
      if Real.sqrt (2 * yv) = 0 ∨ alpha = 0 then .ub
      else .ok ⟨tdNorm, some ((tdNorm / Real.sqrt (2 * yv) - 1) / alpha)⟩
    else .ok ⟨tdNorm, none⟩

/-- Deviatoric force state and new plastic extension of a bond, src/materials/elastic_plastic.cxx:217-253.
-/
def plasticUpdate (C : Config) (P : PlasticConst) (yv : ℝ) (theta edpN : Nat → ℝ) (fl : Flow)
    (b : Bond) : Outcome (ℝ × ℝ) :=
  let alpha := 15 * P.mu / C.m b.i
  let tdTrial := alpha * 1 * (edState C theta b - edpN b.b)
  match fl.deltaLambda with
  | none => .ok (tdTrial, edpN b.b)
  | some dl =>
    if fl.tdNorm = 0 then .ub
    else
      let td := Real.sqrt (2 * yv) * tdTrial / fl.tdNorm
      .ok (td, edpN b.b + td * dl)

/-- Pair force, src/materials/elastic_plastic.cxx:257-270. -/
def plasticBond (C : Config) (P : PlasticConst) (theta : Nat → ℝ) (td : ℝ) (b : Bond) : Outcome V3 :=
  let c := 3 * P.K * theta b.i * 1 / C.m b.i
  let ti := c * C.zeta b
  let d := 1 - C.damage b.b
  along C b (d * (ti + d * td))

/-- The arrays written by the kernel. -/
structure PlasticState where
  edp : Nat → ℝ
  lambda : Nat → ℝ
  F : Nat → V3

/-- The inner loop over the bonds of a point, src/materials/elastic_plastic.cxx:201-278. -/
def plasticInner (C : Config) (P : PlasticConst) (yv : ℝ) (theta edpN : Nat → ℝ) (fl : Flow) :
    List Bond → PlasticState → Outcome PlasticState
  | [], s => .ok s
  | b :: bs, s =>
    match plasticUpdate C P yv theta edpN fl b with
    | .ok (td, edp') =>
      match plasticBond C P theta td b with
      | .ok f =>
        plasticInner C P yv theta edpN fl bs
          { s with
            edp := Function.update s.edp b.b edp'
            F := scatterStep (selfVol C) (nbrVol C) s.F b f }
      | .fail e => .fail e
      | .ub => .ub
    | .fail e => .fail e
    | .ub => .ub

/-- The loop over points of `computeInternalForceIsotropicElasticPlastic`,
src/materials/elastic_plastic.cxx:165-279.  `bonds` are all visited bonds; those of point `p` are the ones
the inner loops of lines 76 and 201 run over. -/
def plasticPoints (C : Config) (P : PlasticConst) (yv : ℝ) (theta edpN lambdaN : Nat → ℝ)
    (bonds : List Bond) : List Nat → PlasticState → Outcome PlasticState
  | [], s => .ok s
  | p :: ps, s =>
    let bs := bonds.filter fun b => b.i = p
    match plasticFlow C P yv theta edpN p bs with
    | .ok fl =>
      match plasticInner C P yv theta edpN fl bs
          { s with lambda := Function.update s.lambda p (fl.newLambda (lambdaN p)) } with
      | .ok s' => plasticPoints C P yv theta edpN lambdaN bonds ps s'
      | .fail e => .fail e
      | .ub => .ub
    | .fail e => .fail e
    | .ub => .ub

/-- `computeInternalForceIsotropicElasticPlastic`, src/materials/elastic_plastic.cxx:116-280. `s` holds the
arrays for the new step as they were before the call. -/
def plasticForce (C : Config) (P : PlasticConst) (theta edpN lambdaN : Nat → ℝ) (n : Nat)
    (l : List Nat) (s : PlasticState) : Outcome PlasticState :=
  match yieldValue P C.horizon with
  | .ok yv =>
    match visitedBonds n l with
    | .ok bonds => plasticPoints C P yv theta edpN lambdaN bonds (List.range n) s
    | .fail e => .fail e
    | .ub => .ub
  | .fail e => .fail e
  | .ub => .ub

/-- `ElasticPlasticMaterial::computeForce`, src/materials/Peridigm_ElasticPlasticMaterial.cpp:134-180: the
force is zeroed, then dilatation (without thermal strain) and force. -/
def plasticMaterial (C : Config) (P : PlasticConst) (n : Nat) (l : List Nat) (th : Nat → ℝ)
    (edpN lambdaN : Nat → ℝ) (s : PlasticState) : Outcome ((Nat → ℝ) × PlasticState) :=
  match dilatation { C with thermal := none } n l th with
  | .ok theta =>
    match plasticForce C P theta edpN lambdaN n l { s with F := 0 } with
    | .ok s' => .ok (theta, s')
    | .fail e => .fail e
    | .ub => .ub
  | .fail e => .fail e
  | .ub => .ub

/-! ### Viscoelastic material -/

/-- Constants of the viscoelastic material. -/
structure ViscoConst where
  K : ℝ
  mu : ℝ
  lambdaI : ℝ
  tauB : ℝ

/-- `decay` and `beta_i`, src/materials/viscoelastic.cxx:78-80. -/
def viscoCoefficients (tau dt : ℝ) : Outcome (ℝ × ℝ) :=
  if dt = 0 then .ub
  else
    let c1 := tau / dt
    if c1 = 0 then .ub
    else
      let decay := Real.exp (-1 / c1)
      .ok (decay, 1 - c1 * (1 - decay))

/-- `edN` with positions `yN` and dilatation `thetaN`, or `edNp1` with the new ones,
src/materials/viscoelastic.cxx:136-163. -/
def viscoEd (C : Config) (y : Nat → V3) (theta : Nat → ℝ) (b : Bond) : ℝ :=
  (1 - C.damage b.b) * (len (y b.j - y b.i) - C.zeta b) - theta b.i * C.zeta b / 3

/-- Integration of the back extension, src/materials/viscoelastic.cxx:168-172. -/
def viscoBack (decay beta edN edNp1 edbN : ℝ) : ℝ :=
  edN * (1 - decay) + edbN * decay + beta * (edNp1 - edN)

/-- Pair force, src/materials/viscoelastic.cxx:109-111 and 177-190. -/
def viscoBond (C : Config) (P : ViscoConst) (theta : Nat → ℝ) (edNp1 edbNP1 : ℝ) (b : Bond) :
    Outcome V3 :=
  if C.m b.i = 0 then .ub
  else
    let alpha := 15 * P.mu / C.m b.i
    let c := 3 * P.K * theta b.i / C.m b.i
    let td := (1 - P.lambdaI) * alpha * 1 * edNp1 + P.lambdaI * alpha * 1 * (edNp1 - edbNP1)
    let ti := c * 1 * C.zeta b
    along C b ((1 - C.damage b.b) * (ti + td))

/-- The loops of `computeInternalForceViscoelasticStandardLinearSolid`, src/materials/viscoelastic.cxx:100-199,
over the visited bonds.  `C.y` are the new positions. -/
def viscoLoop (C : Config) (P : ViscoConst) (decay beta : ℝ) (yN : Nat → V3) (thetaN theta : Nat → ℝ)
    (edbN : Nat → ℝ) : List Bond → (Nat → ℝ) × (Nat → V3) → Outcome ((Nat → ℝ) × (Nat → V3))
  | [], s => .ok s
  | b :: bs, s =>
    let edN := viscoEd C yN thetaN b
    let edNp1 := viscoEd C C.y theta b
    let edb := viscoBack decay beta edN edNp1 (edbN b.b)
    match viscoBond C P theta edNp1 edb b with
    | .ok f =>
      viscoLoop C P decay beta yN thetaN theta edbN bs
        (Function.update s.1 b.b edb, scatterStep (selfVol C) (nbrVol C) s.2 b f)
    | .fail e => .fail e
    | .ub => .ub

/-- `computeInternalForceViscoelasticStandardLinearSolid`, src/materials/viscoelastic.cxx:55-200. -/
def viscoForce (C : Config) (P : ViscoConst) (dt : ℝ) (yN : Nat → V3) (thetaN theta edbN : Nat → ℝ)
    (n : Nat) (l : List Nat) (s : (Nat → ℝ) × (Nat → V3)) : Outcome ((Nat → ℝ) × (Nat → V3)) :=
  match viscoCoefficients P.tauB dt with
  | .ok (decay, beta) =>
    match visitedBonds n l with
    | .ok bs => viscoLoop C P decay beta yN thetaN theta edbN bs s
    | .fail e => .fail e
    | .ub => .ub
  | .fail e => .fail e
  | .ub => .ub

/-- `ViscoelasticMaterial::computeForce`, src/materials/Peridigm_ViscoelasticMaterial.cpp:115-156. -/
def viscoMaterial (C : Config) (P : ViscoConst) (dt : ℝ) (yN : Nat → V3) (thetaN edbN : Nat → ℝ)
    (n : Nat) (l : List Nat) (th edb : Nat → ℝ) :
    Outcome ((Nat → ℝ) × (Nat → ℝ) × (Nat → V3)) :=
  match dilatation { C with thermal := none } n l th with
  | .ok theta =>
    match viscoForce C P dt yN thetaN theta edbN n l (edb, 0) with
    | .ok s => .ok (theta, s.1, s.2)
    | .fail e => .fail e
    | .ub => .ub
  | .fail e => .fail e
  | .ub => .ub

/-! ### Linear state-based material and partial volumes -/

/-- Partial volumes of the bonds (`selfVolumePtr`, `neighborVolumePtr`), `none` if the pointers are null. -/
abbrev PartialVolumes := Option ((Nat → ℝ) × (Nat → ℝ))

/-- `volSelf`, src/materials/linear_lps_pv.cxx:164-171; src/materials/elastic_pv.cxx:286-293. -/
def pvSelf (C : Config) (pv : PartialVolumes) (b : Bond) : ℝ :=
  match pv with
  | some (s, _) => s b.b
  | none => C.v b.i

/-- `volNeighbor`, src/materials/linear_lps_pv.cxx:164-171; src/materials/elastic_pv.cxx:286-293. -/
def pvNbr (C : Config) (pv : PartialVolumes) (b : Bond) : ℝ :=
  match pv with
  | some (_, s) => s b.b
  | none => C.v b.j

/-- `zeta` as a vector, src/materials/linear_lps_pv.cxx:100. -/
def xd (C : Config) (b : Bond) : V3 := C.x b.j - C.x b.i

/-- `uNeighbor - u`, src/materials/linear_lps_pv.cxx:101-102. -/
def ud (C : Config) (b : Bond) : V3 := fun c => (C.y b.j c - C.x b.j c) - (C.y b.i c - C.x b.i c)

/-- The influence value, src/materials/linear_lps_pv.cxx:178-183: stored per bond, or evaluated. -/
def lpsOmega (C : Config) (stored : Option (Nat → ℝ)) (b : Bond) : ℝ :=
  match stored with
  | some w => w b.b
  | none => C.om b

/-- The inner loop of `computeDilatationLinearLPS`, src/materials/linear_lps_pv.cxx:91-113, over the bonds of
one point. -/
def lpsDilatationSum (C : Config) (pv : PartialVolumes) (stored : Option (Nat → ℝ)) (bs : List Bond) :
    ℝ :=
  bs.foldl (fun th b =>
    let dot := xd C b 0 * ud C b 0 + xd C b 1 * ud C b 1 + xd C b 2 * ud C b 2
    th + lpsOmega C stored b * (1 - C.damage b.b) * dot * pvNbr C pv b) 0

/-- `computeDilatationLinearLPS` for point `p`, src/materials/linear_lps_pv.cxx:87-117. -/
def lpsDilatation (C : Config) (pv : PartialVolumes) (stored : Option (Nat → ℝ)) (bonds : List Bond)
    (p : Nat) : Outcome ℝ :=
  let bs := bonds.filter fun b => b.i = p
  if bs.length > 0 then
    if C.m p = 0 then .ub else .ok (lpsDilatationSum C pv stored bs * (3 / C.m p))
  else .ok (lpsDilatationSum C pv stored bs)

/-- Pair force of `computeInternalForceLinearLPS`, src/materials/linear_lps_pv.cxx:172-196. -/
def lpsBond (C : Config) (K mu : ℝ) (stored : Option (Nat → ℝ)) (theta : Nat → ℝ) (b : Bond) :
    Outcome V3 :=
  let om := lpsOmega C stored b
  if C.m b.i = 0 ∨ C.zeta b = 0 then .ub
  else
    let temp1 := (9 * K - 15 * mu) * om * theta b.i / (3 * C.m b.i)
    let temp2 := 15 * mu * om / (C.m b.i * C.zeta b * C.zeta b)
    let z := xd C b
    let u := ud C b
    .ok fun c => (1 - C.damage b.b) *
      (temp1 * z c + temp2 * (z c * z 0 * u 0 + z c * z 1 * u 1 + z c * z 2 * u 2))

/-- `computeInternalForceLinearLPS`, src/materials/linear_lps_pv.cxx:120-205. -/
def lpsForce (C : Config) (K mu : ℝ) (pv : PartialVolumes) (stored : Option (Nat → ℝ))
    (theta : Nat → ℝ) (n : Nat) (l : List Nat) (F : Nat → V3) : Outcome (Nat → V3) :=
  kernel (pvSelf C pv) (pvNbr C pv) (lpsBond C K mu stored theta) n l F

/-- `computeInternalForceLinearElasticPV`, src/materials/elastic_pv.cxx:217-303. -/
def elasticForcePV (C : Config) (K mu : ℝ) (pv : PartialVolumes) (theta : Nat → ℝ) (n : Nat)
    (l : List Nat) (F : Nat → V3) : Outcome (Nat → V3) :=
  kernel (pvSelf C pv) (pvNbr C pv) (elasticBond C K mu theta) n l F

end Verif.Mech
