import Verif.Mech.Model
import Mathlib.Analysis.SpecialFunctions.Trigonometric.Inverse
import Mathlib.Analysis.SpecialFunctions.Pow.Real

/-!
# The elastic-plastic material with isotropic hardening

Models src/materials/elastic_plastic_hardening.cxx and `ElasticPlasticHardeningMaterial::computeForce`.  Bonds,
configurations, dilatation and the scatter into the force array are those of `Verif.Mech`.  Arithmetic is
exact; in particular `1./3.` is a third.  A quotient whose denominator is zero is `.ub`.
-/

noncomputable section

namespace Verif.Hardening

open Verif Verif.Neigh Verif.Mech

/-- Material constants, src/materials/Peridigm_ElasticPlasticHardeningMaterial.cpp:72-77. -/
structure Const where
  K : ℝ
  mu : ℝ
  yieldStress : ℝ
  H : ℝ

/-- `yieldValue`, src/materials/elastic_plastic_hardening.cxx:98. -/
def yieldValue (P : Const) (delta : ℝ) : Outcome ℝ :=
  if delta ^ 5 = 0 then .ub
  else .ok (25 * P.yieldStress * P.yieldStress / 8 / Real.pi / delta ^ 5)

/-- `sign`, src/materials/elastic_plastic_hardening.cxx:57-60. -/
def sign (v : ℝ) : ℝ := if v > 0 then 1 else if v < 0 then -1 else 0

/-- The coefficients `a`, `b` and `c` of the cubic, src/materials/elastic_plastic_hardening.cxx:268-270. -/
def coefA (lambdaN y alpha H : ℝ) : ℝ := 2 / alpha + lambdaN + y / H

/-- `b`, src/materials/elastic_plastic_hardening.cxx:269. -/
def coefB (lambdaN y alpha H : ℝ) : ℝ :=
  (H + 2 * alpha * H * lambdaN + 2 * alpha * y) / (alpha * alpha * H)

/-- `c`, src/materials/elastic_plastic_hardening.cxx:270. -/
def coefC (tdNorm lambdaN y alpha H : ℝ) : ℝ :=
  (2 * H * lambdaN + 2 * y - tdNorm * tdNorm) / (2 * alpha * alpha * H)

/-- One of the three comparisons with `min`, src/materials/elastic_plastic_hardening.cxx:291-296.  `none` stands
for the initial value `DBL_MAX`, which no root exceeds. -/
def smaller (min : Option ℝ) (root : ℝ) : Option ℝ :=
  match min with
  | none => if root > 0 then some root else none
  | some m => if root > 0 ∧ |root| < |m| then some root else some m

/-- The branch with three roots, src/materials/elastic_plastic_hardening.cxx:279-306. -/
def threeRoots (a Q R : ℝ) : ℝ :=
  let theta := Real.arccos (R / Real.sqrt (Q * Q * Q))
  let root1 := -2 * Real.sqrt Q * Real.cos (theta / 3) - a / 3
  let root2 := -2 * Real.sqrt Q * Real.cos (theta / 3 + 2 * Real.pi / 3) - a / 3
  let root3 := -2 * Real.sqrt Q * Real.cos (theta / 3 - 2 * Real.pi / 3) - a / 3
  ((((none : Option ℝ) |> (smaller · root1)) |> (smaller · root2)) |> (smaller · root3)).getD 0

/-- `A`, src/materials/elastic_plastic_hardening.cxx:311. -/
def cardano (Q R : ℝ) : ℝ := -sign R * (|R| + Real.sqrt (R * R - Q * Q * Q)) ^ (1 / 3 : ℝ)

/-- The branch with one root, src/materials/elastic_plastic_hardening.cxx:311-324. -/
def oneRoot (a Q R : ℝ) : Outcome ℝ :=
  let A := cardano Q R
  if A = 0 then .ub
  else
    let B := Q / A
    let val := A + B - a / 3
    if val < 0 then .ok 0 else .ok val

/-- `updateDeltaLambda`, src/materials/elastic_plastic_hardening.cxx:258-327. -/
def updateDeltaLambda (tdNorm lambdaN y alpha H : ℝ) : Outcome ℝ :=
  if alpha = 0 ∨ H = 0 then .ub
  else
    let a := coefA lambdaN y alpha H
    let b := coefB lambdaN y alpha H
    let c := coefC tdNorm lambdaN y alpha H
    let Q := (a * a - 3 * b) / 9
    let R := (2 * a * a * a - 9 * a * b + 27 * c) / 54
    if R * R < Q * Q * Q then .ok (threeRoots a Q R) else oneRoot a Q R

/-- `deltaLambda` as the loop over points sets it, src/materials/elastic_plastic_hardening.cxx:143-150. -/
def increment (tdNorm lambdaN y alpha H : ℝ) : Outcome ℝ :=
  if tdNorm * tdNorm / 2 - y > 0 then
    match updateDeltaLambda tdNorm lambdaN y alpha H with
    | .ok d => .ok (if d < 0 then 0 else d)
    | .fail e => .fail e
    | .ub => .ub
  else .ok 0

/-- `alpha`, src/materials/elastic_plastic_hardening.cxx:124. -/
def alphaOf (C : Config) (P : Const) (scf : Nat → ℝ) (p : Nat) : ℝ := scf p * 15 * P.mu / C.m p

/-- The plastic increment of point `p` with bonds `bs`, src/materials/elastic_plastic_hardening.cxx:123-150. -/
def flow (C : Config) (P : Const) (scf : Nat → ℝ) (yv : ℝ) (theta edpN lambdaN : Nat → ℝ) (p : Nat)
    (bs : List Bond) : Outcome ℝ :=
  if C.m p = 0 then .ub
  else
    let alpha := alphaOf C P scf p
    let tdNorm := deviatoricNorm C theta edpN alpha bs
    increment tdNorm (lambdaN p) (scf p * scf p * yv) alpha P.H

/-- Deviatoric force state and new plastic extension of a bond, src/materials/elastic_plastic_hardening.cxx:189-223;
`elastic` of line 156 is `¬ dl > 0`. -/
def update (C : Config) (P : Const) (scf : Nat → ℝ) (theta edpN : Nat → ℝ) (dl : ℝ) (b : Bond) :
    Outcome (ℝ × ℝ) :=
  let alpha := alphaOf C P scf b.i
  let tdTrial := alpha * 1 * (edState C theta b - edpN b.b)
  if dl > 0 then
    if 1 + alpha * dl = 0 then .ub
    else
      let td := tdTrial / (1 + alpha * dl)
      .ok (td, edpN b.b + td * dl)
  else .ok (tdTrial, edpN b.b)

/-- Pair force, src/materials/elastic_plastic_hardening.cxx:229-242. -/
def pairForce (C : Config) (P : Const) (theta : Nat → ℝ) (td : ℝ) (b : Bond) : Outcome V3 :=
  let c := 3 * P.K * theta b.i * 1 / C.m b.i
  let ti := c * C.zeta b
  let d := 1 - C.damage b.b
  along C b (d * (ti + d * td))

/-- The inner loop over the bonds of a point, src/materials/elastic_plastic_hardening.cxx:174-251. -/
def inner (C : Config) (P : Const) (scf : Nat → ℝ) (theta edpN : Nat → ℝ) (dl : ℝ) :
    List Bond → PlasticState → Outcome PlasticState
  | [], s => .ok s
  | b :: bs, s =>
    match update C P scf theta edpN dl b with
    | .ok (td, edp') =>
      match pairForce C P theta td b with
      | .ok f =>
        inner C P scf theta edpN dl bs
          { s with
            edp := Function.update s.edp b.b edp'
            F := scatterStep (selfVol C) (nbrVol C) s.F b f }
      | .fail e => .fail e
      | .ub => .ub
    | .fail e => .fail e
    | .ub => .ub

/-- The loop over points, src/materials/elastic_plastic_hardening.cxx:117-253.  `bonds` are all visited bonds; those of
point `p` are the ones the inner loops run over.  `lambdaNP1` is written at lines 165 and 168. -/
def points (C : Config) (P : Const) (scf : Nat → ℝ) (yv : ℝ) (theta edpN lambdaN : Nat → ℝ)
    (bonds : List Bond) : List Nat → PlasticState → Outcome PlasticState
  | [], s => .ok s
  | p :: ps, s =>
    let bs := bonds.filter fun b => b.i = p
    match flow C P scf yv theta edpN lambdaN p bs with
    | .ok dl =>
      match inner C P scf theta edpN dl bs
          { s with lambda := Function.update s.lambda p
                    (if dl > 0 then lambdaN p + dl else lambdaN p) } with
      | .ok s' => points C P scf yv theta edpN lambdaN bonds ps s'
      | .fail e => .fail e
      | .ub => .ub
    | .fail e => .fail e
    | .ub => .ub

/-- `computeInternalForceIsotropicHardeningPlastic`, src/materials/elastic_plastic_hardening.cxx:62-254. `s` holds the
arrays for the new step as they were before the call. -/
def force (C : Config) (P : Const) (scf : Nat → ℝ) (theta edpN lambdaN : Nat → ℝ) (n : Nat)
    (l : List Nat) (s : PlasticState) : Outcome PlasticState :=
  match yieldValue P C.horizon with
  | .ok yv =>
    match visitedBonds n l with
    | .ok bonds => points C P scf yv theta edpN lambdaN bonds (List.range n) s
    | .fail e => .fail e
    | .ub => .ub
  | .fail e => .fail e
  | .ub => .ub

/-- `ElasticPlasticHardeningMaterial::computeForce`,
src/materials/Peridigm_ElasticPlasticHardeningMaterial.cpp:149-196: the force is zeroed, then dilatation (without
thermal strain) and force. -/
def material (C : Config) (P : Const) (scf : Nat → ℝ) (n : Nat) (l : List Nat) (th : Nat → ℝ)
    (edpN lambdaN : Nat → ℝ) (s : PlasticState) : Outcome ((Nat → ℝ) × PlasticState) :=
  match dilatation { C with thermal := none } n l th with
  | .ok theta =>
    match force C P scf theta edpN lambdaN n l { s with F := 0 } with
    | .ok s' => .ok (theta, s')
    | .fail e => .fail e
    | .ub => .ub
  | .fail e => .fail e
  | .ub => .ub

end Verif.Hardening
