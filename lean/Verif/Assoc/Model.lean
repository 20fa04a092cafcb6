import Verif.Correspondence.StressModel
import Mathlib.LinearAlgebra.Matrix.Defs

/-!
# Bond-associated correspondence material (model)

Models `BondAssociatedCorrespondenceMaterial` (src/materials/Peridigm_BondAssociatedCorrespondenceMaterial.cpp)
and the functions of src/materials/correspondence.cxx it calls, for the double instantiation over the
reals.  Arrays of point data are functions from local ids, arrays of bond data functions from bond
positions; the three or nine arrays that hold the components of a vector or tensor are one function.

Not modelled: the singular value decomposition `dsvd` (src/materials/correspondence.cxx:282-558), which is
a parameter here, and the node-level stretch, rotation and stress, which only go to the output; that
a singular node-level deformation gradient ends the analysis is modelled.  The arrays of step N are
taken from the state, those of step N+1 form the next state.
-/

noncomputable section

namespace Verif.Assoc

open Verif Verif.Neigh Verif.Mech Verif.Tensor
open Verif.Correspondence (bondsAt addOuter identity newStretch newRotation unrotated rotateStress)
open scoped Classical

/-- Constant data of a block.
Models src/materials/Peridigm_BondAssociatedCorrespondenceMaterial.cpp:525-541. -/
structure Body where
  x : Nat → V3
  volume : Nat → ℝ
  horizon : Nat → ℝ
  /-- `scalarInfluenceFunction` -/
  influence : ℝ → ℝ → ℝ

/-- `undeformedBondX` etc.
Models src/materials/correspondence.cxx:3141-3143, 3847-3849, 4434-4436. -/
def xi (B : Body) (b : Bond) : V3 := B.x b.j - B.x b.i

/-- `undeformedBondLengthSq`.
Models src/materials/correspondence.cxx:3850-3852, 4437-4439 and
src/materials/Peridigm_BondAssociatedCorrespondenceMaterial.cpp:1000-1002. -/
def lenSq (d : V3) : ℝ := d 0 * d 0 + d 1 * d 1 + d 2 * d 2

/-! ### Gradient weights -/

/-- Counting down from `t` to zero.
Models the loop headers src/materials/correspondence.cxx:3150-3151. -/
def down (t : Nat) : List Nat := (List.range (t + 1)).reverse

/-- The powers of the monomials in the order of the vector `Q`.
Models the loops src/materials/correspondence.cxx:3100-3107, 3148-3152. -/
def powers (order : Nat) : List (Nat × Nat × Nat) :=
  (List.range order).flatMap fun t => (down (t + 1)).flatMap fun p1 =>
    (down (t + 1 - p1)).map fun p2 => (p1, p2, t + 1 - p1 - p2)

/-- `Qdim`.
Models src/materials/correspondence.cxx:3098-3107. -/
def dim (order : Nat) : Nat := (powers order).length

/-- The vector `Q` of a bond.
Models src/materials/correspondence.cxx:3147-3166. -/
def qVector (order : Nat) (d : V3) (delta : ℝ) : Fin (dim order) → ℝ := fun k =>
  1 * (d 0 / delta) ^ ((powers order)[k]).1 * (d 1 / delta) ^ ((powers order)[k]).2.1 *
    (d 2 / delta) ^ ((powers order)[k]).2.2

/-- Influence state of a bond.
Models src/materials/correspondence.cxx:3168-3169. -/
def influenceOf (B : Body) (bondDamage : Nat → ℝ) (b : Bond) : ℝ :=
  B.influence (len (xi B b)) (B.horizon b.i) * (1 - bondDamage b.b)

/-- The moment matrix of a point with bonds `bs`.
Models src/materials/correspondence.cxx:3126-3131, 3171-3174. -/
def moment (B : Body) (order : Nat) (omega : Nat → ℝ) (bs : List Bond) :
    Matrix (Fin (dim order)) (Fin (dim order)) ℝ :=
  bs.foldl (fun M b => fun i j => M i j + omega b.b * B.volume b.j *
    qVector order (xi B b) (B.horizon b.i) i * qVector order (xi B b) (B.horizon b.i) j) fun _ _ => 0

/-- What `dsvd` returns: `u`, `w` and `v`.
Models the arguments of src/materials/correspondence.cxx:282-287. -/
structure Svd (q : Nat) where
  u : Matrix (Fin q) (Fin q) ℝ
  w : Fin q → ℝ
  v : Matrix (Fin q) (Fin q) ℝ

/-- `dsvd` as a function. -/
abbrev Decompose := ∀ q, Matrix (Fin q) (Fin q) ℝ → Svd q

/-- `invertAndCond`: return code and result.
Models src/materials/correspondence.cxx:560-599. -/
def invertAndCond {q : Nat} (D : Decompose) (M : Matrix (Fin q) (Fin q) ℝ) (thres : ℝ) :
    Nat × Matrix (Fin q) (Fin q) ℝ :=
  (0, fun i j => (List.finRange q).foldl (fun t k =>
    if thres < (D q M).w k then t + (D q M).v i k * 1 / (D q M).w k * (D q M).u j k else t) 0)

/-- One component of the gradient weight: the row `c` of the inverse times `Q`.
Models src/materials/correspondence.cxx:3223-3239. -/
def phiOf {q : Nat} (inv : Matrix (Fin q) (Fin q) ℝ) (omega delta : ℝ) (Q : Fin q → ℝ) (c : Nat) : ℝ :=
  (List.finRange q).foldl (fun t k =>
    t + 1 * omega * (if h : c < q then inv ⟨c, h⟩ k else 0) * Q k / delta) 0

/-- Return code, `gradientWeightEvaluationFlag`, `influenceState` and `gradientWeightX` etc. -/
structure Weights where
  code : Nat
  flag : Nat → ℝ
  omega : Nat → ℝ
  phi : Nat → V3

/-- Storing a value for each bond of a list. -/
def storeAll {α : Type} (f : Bond → α) (bs : List Bond) (a : Nat → α) : Nat → α :=
  bs.foldl (fun a b => Function.update a b.b (f b)) a

/-- Evaluation of the weights of a point.  The second loop reads the influence state the first one
stored.
Models src/materials/correspondence.cxx:3124-3243. -/
def evaluate (B : Body) (D : Decompose) (order : Nat) (bondDamage : Nat → ℝ) (bs : List Bond)
    (s : Weights) (p : Nat) : Weights :=
  let omega := storeAll (influenceOf B bondDamage) bs s.omega
  let inv := invertAndCond D (moment B order omega bs)
    (1 / 10 ^ 6 * B.horizon p * B.horizon p * B.horizon p)
  { code := if 0 < inv.1 then inv.1 else s.code
    flag := Function.update s.flag p 1
    omega := omega
    phi := storeAll (fun b c => phiOf inv.2 (omega b.b) (B.horizon b.i)
      (qVector order (xi B b) (B.horizon b.i)) c) bs s.phi }

/-- One pass of the loop over points; a horizon of zero divides by zero.
Models src/materials/correspondence.cxx:3120-3252. -/
def weightsPoint (B : Body) (D : Decompose) (order : Nat) (bondDamage : Nat → ℝ) (bonds : List Bond)
    (s : Weights) (p : Nat) : Outcome Weights :=
  if s.flag p < 1 / 2 then
    if B.horizon p = 0 then .ub
    else .ok (evaluate B D order bondDamage (bondsAt bonds p) s p)
  else .ok s

/-- `computeLagrangianGradientWeights`.  With an order below one `&QVector[0]` is taken of an empty
vector.
Models src/materials/correspondence.cxx:3061-3256. -/
def gradientWeights (B : Body) (D : Decompose) (order : Nat) (bondDamage : Nat → ℝ) (n : Nat)
    (bonds : List Bond) (s : Weights) : Outcome Weights :=
  if order = 0 then .ub
  else (List.range n).foldlM (weightsPoint B D order bondDamage bonds) { s with code := 0 }

/-- `updateGradientWeightEvaluationFlag`.
Models src/materials/correspondence.cxx:3039-3058. -/
def updateFlag (damageN damageNP1 : Nat → ℝ) (n : Nat) (flag : Nat → ℝ) : Nat → ℝ :=
  (List.range n).foldl (fun f p =>
    if 1 / 10 ^ 15 < damageNP1 p - damageN p then Function.update f p 0 else f) flag

/-- `computeWeightedVolume`.
Models src/materials/correspondence.cxx:3359-3388. -/
def weightedVolume (B : Body) (omega : Nat → ℝ) (bonds : List Bond) (n : Nat) (w : Nat → ℝ) : Nat → ℝ :=
  (List.range n).foldl (fun w p => Function.update w p
    ((bondsAt bonds p).foldl (fun t b => t + omega b.b * B.volume b.j) 0)) w

/-! ### Deformation gradients -/

/-- `defGrad` with `start` the identity and `z` the displacements, `defGradDot` with `start` zero and `z`
the velocities.
Models src/materials/correspondence.cxx:3312-3345. -/
def gradientAt (B : Body) (phi : Nat → V3) (start : M9) (z : Nat → V3) (bs : List Bond) : M9 :=
  bs.foldl (fun t b => addOuter t (B.volume b.j) (z b.j - z b.i) (phi b.b)) start

/-- `precompute`: the weights, and the deformation gradients of the owned points.  Those of other
points are set by the synchronisation that follows (`ghosts`).
Models src/materials/Peridigm_BondAssociatedCorrespondenceMaterial.cpp:1028-1111 and
src/materials/correspondence.cxx:3272-3356. -/
structure Pre where
  weights : Weights
  grad : Nat → M9
  gradDot : Nat → M9

/-- Field values received from the owners of ghost points.
Models src/core/Peridigm.cpp synchronisation of `FieldIdsForSynchronizationAfterPrecompute`,
src/materials/Peridigm_BondAssociatedCorrespondenceMaterial.hpp:87-99. -/
structure Ghosts where
  grad : Nat → M9
  gradDot : Nat → M9

/-- Damage of points at steps N and N+1 and bond damage at step N+1, as the damage model left them. -/
structure Harm where
  damageN : Nat → ℝ
  damageNP1 : Nat → ℝ
  bondDamage : Nat → ℝ

/-- Models src/materials/Peridigm_BondAssociatedCorrespondenceMaterial.cpp:1028-1111. -/
def precompute (B : Body) (D : Decompose) (order : Nat) (H : Harm) (u v : Nat → V3) (n : Nat)
    (bonds : List Bond) (w : Weights) (g : Ghosts) : Outcome Pre := do
  let w ← gradientWeights B D order H.bondDamage n bonds
    { w with flag := updateFlag H.damageN H.damageNP1 n w.flag }
  if w.code ≠ 0 then .fail .runtimeError
  else .ok { weights := w
             grad := fun p => if p < n then gradientAt B w.phi identity u (bondsAt bonds p) else g.grad p
             gradDot := fun p =>
               if p < n then gradientAt B w.phi zero v (bondsAt bonds p) else g.gradDot p }

/-! ### Bond-level kinematics -/

/-- Half the sum of two tensors.
Models src/materials/correspondence.cxx:3862-3870. -/
def mean (a b : M9) : M9 where
  xx := 0.5 * (a.xx + b.xx)
  xy := 0.5 * (a.xy + b.xy)
  xz := 0.5 * (a.xz + b.xz)
  yx := 0.5 * (a.yx + b.yx)
  yy := 0.5 * (a.yy + b.yy)
  yz := 0.5 * (a.yz + b.yz)
  zx := 0.5 * (a.zx + b.zx)
  zy := 0.5 * (a.zy + b.zy)
  zz := 0.5 * (a.zz + b.zz)

/-- The mean gradient corrected so that it maps the bond `d` to `z`.
Models src/materials/correspondence.cxx:3872-3900. -/
def corrected (m : M9) (d z : V3) : M9 where
  xx := m.xx + (z 0 - (m.xx * d 0 + m.xy * d 1 + m.xz * d 2)) * d 0 / lenSq d
  xy := m.xy + (z 0 - (m.xx * d 0 + m.xy * d 1 + m.xz * d 2)) * d 1 / lenSq d
  xz := m.xz + (z 0 - (m.xx * d 0 + m.xy * d 1 + m.xz * d 2)) * d 2 / lenSq d
  yx := m.yx + (z 1 - (m.yx * d 0 + m.yy * d 1 + m.yz * d 2)) * d 0 / lenSq d
  yy := m.yy + (z 1 - (m.yx * d 0 + m.yy * d 1 + m.yz * d 2)) * d 1 / lenSq d
  yz := m.yz + (z 1 - (m.yx * d 0 + m.yy * d 1 + m.yz * d 2)) * d 2 / lenSq d
  zx := m.zx + (z 2 - (m.zx * d 0 + m.zy * d 1 + m.zz * d 2)) * d 0 / lenSq d
  zy := m.zy + (z 2 - (m.zx * d 0 + m.zy * d 1 + m.zz * d 2)) * d 1 / lenSq d
  zz := m.zz + (z 2 - (m.zx * d 0 + m.zy * d 1 + m.zz * d 2)) * d 2 / lenSq d

/-- `defGrad` and `defGradDot` of a bond: `z` are the positions or the velocities.
Models src/materials/correspondence.cxx:3833-3900. -/
def bondGradient (B : Body) (grad : Nat → M9) (z : Nat → V3) (b : Bond) : M9 :=
  corrected (mean (grad b.i) (grad b.j)) (xi B b) (z b.j - z b.i)

/-- Bond data of the kinematics. -/
structure Kin where
  jacobian : Nat → ℝ
  inv : Nat → M9
  stretch : Nat → M9
  rotation : Nat → M9
  rate : Nat → M9

/-- One bond; `V` and `R` are left stretch and rotation at step N.
Models src/materials/correspondence.cxx:3832-4083. -/
def kinBond (B : Body) (dt : ℝ) (P : Pre) (y v : Nat → V3) (V R : Nat → M9) (k : Kin) (b : Bond) :
    Outcome Kin :=
  if 0 < P.weights.omega b.b then
    if lenSq (xi B b) = 0 then .ub
    else
      let F := bondGradient B P.grad y b
      if (invert3 F).1 ≠ 0 then .fail .terminate
      else
        let L := matrixMultiply false false 1 (bondGradient B P.gradDot v b) (invert3 F).2
        let R' := newRotation dt L (V b.b) (R b.b)
        .ok { jacobian := Function.update k.jacobian b.b (determinant F)
              inv := Function.update k.inv b.b (invert3 F).2
              stretch := Function.update k.stretch b.b (newStretch dt L (V b.b))
              rotation := Function.update k.rotation b.b R'
              rate := Function.update k.rate b.b (unrotated L R') }
  else .ok { k with stretch := Function.update k.stretch b.b (V b.b)
                    rotation := Function.update k.rotation b.b (R b.b)
                    rate := Function.update k.rate b.b zero }

/-! ### Stresses and forces -/

/-- `computeBondLevelPiolaStress` for one bond.
Models src/materials/correspondence.cxx:4361. -/
def piolaBond (J : ℝ) (sigma inv : M9) : M9 := matrixMultiply false true J sigma inv

/-- `delta_jp - (y_j y_p)/|y|^2`.
Models src/materials/correspondence.cxx:4446-4455. -/
def transverse (d : V3) : M9 where
  xx := 1 - d 0 * d 0 / lenSq d
  xy := -d 0 * d 1 / lenSq d
  xz := -d 0 * d 2 / lenSq d
  yx := -d 0 * d 1 / lenSq d
  yy := 1 - d 1 * d 1 / lenSq d
  yz := -d 1 * d 2 / lenSq d
  zx := -d 0 * d 2 / lenSq d
  zy := -d 1 * d 2 / lenSq d
  zz := 1 - d 2 * d 2 / lenSq d

/-- One bond of `computeStressIntegral`.
Models src/materials/correspondence.cxx:4427-4465. -/
def integralBond (B : Body) (w0 : Nat → ℝ) (omega : Nat → ℝ) (piola : Nat → M9) (t : M9) (b : Bond) :
    Outcome M9 :=
  if 0 < omega b.b then
    if w0 b.i = 0 ∨ w0 b.j = 0 ∨ lenSq (xi B b) = 0 then .ub
    else .ok (Verif.Correspondence.addScaled t
      (omega b.b * (0.5 / w0 b.i + 0.5 / w0 b.j) * B.volume b.j)
      (matrixMultiply false false 1 (piola b.b) (transverse (xi B b))))
  else .ok t

/-- `computeStressIntegral`.
Models src/materials/correspondence.cxx:4376-4483. -/
def stressIntegral (B : Body) (w0 : Nat → ℝ) (omega : Nat → ℝ) (piola : Nat → M9) (n : Nat)
    (bonds : List Bond) : Outcome (Nat → M9) :=
  (List.range n).foldlM (fun S p => do
    let t ← (bondsAt bonds p).foldlM (integralBond B w0 omega piola) zero
    .ok (Function.update S p t)) fun _ => zero

/-- `TX`, `TY`, `TZ`.  A bond without influence is skipped, which the model renders as a zero force.
Models src/materials/Peridigm_BondAssociatedCorrespondenceMaterial.cpp:991-1010. -/
def forceBond (B : Body) (w0 : Nat → ℝ) (w : Weights) (piola S : Nat → M9) (b : Bond) : Outcome V3 :=
  if 0 < w.omega b.b then
    if w0 b.i = 0 ∨ lenSq (xi B b) = 0 then .ub
    else
      let d := xi B b
      let P := piola b.b
      let I := S b.i
      let f := w.phi b.b
      .ok ![w.omega b.b / w0 b.i * (P.xx * d 0 + P.xy * d 1 + P.xz * d 2) / lenSq d +
              (I.xx * f 0 + I.xy * f 1 + I.xz * f 2),
            w.omega b.b / w0 b.i * (P.yx * d 0 + P.yy * d 1 + P.yz * d 2) / lenSq d +
              (I.yx * f 0 + I.yy * f 1 + I.yz * f 2),
            w.omega b.b / w0 b.i * (P.zx * d 0 + P.zy * d 1 + P.zz * d 2) / lenSq d +
              (I.zx * f 0 + I.zy * f 1 + I.zz * f 2)]
  else .ok 0

/-! ### The material -/

/-- What the material keeps from step to step. -/
structure State where
  weights : Weights
  w0 : Nat → ℝ
  jacobian : Nat → ℝ
  inv : Nat → M9
  stretch : Nat → M9
  rotation : Nat → M9
  stress : Nat → M9

/-- `computeCauchyStress` of the derived class on the bond level: time step, unrotated rates of
deformation and unrotated stresses at step N give those at step N+1. -/
abbrev Update := ℝ → (Nat → M9) → (Nat → M9) → Outcome (Nat → M9)

/-- `updateBondLevelElasticCauchyStress` of the elastic material; the arithmetic is that of
`updateElasticCauchyStress` at a point.
Models src/materials/elastic_correspondence.cxx:276-425 (the version with the flying point flag differs
in that flag only) and src/materials/Peridigm_ElasticBondAssociatedCorrespondenceMaterial.cpp:97-215. -/
def elasticUpdate (bulk shear : ℝ) : Update := fun dt D s =>
  .ok fun b => Verif.Correspondence.elasticPoint bulk shear dt none (D b) (s b)

/-- Output of an evaluation. -/
structure Result where
  pre : Pre
  kin : Kin
  /-- unrotated Cauchy stress at step N+1 -/
  stress : Nat → M9
  /-- Cauchy stress -/
  cauchy : Nat → M9
  piola : Nat → M9
  integral : Nat → M9
  force : Nat → V3

/-- `computeForce` after `precompute` and synchronisation, on the bond level; `w0` at ghost points is
that of their owners.  The node-level part contributes the termination on a singular gradient.
Models src/materials/Peridigm_BondAssociatedCorrespondenceMaterial.cpp:571-1026. -/
def computeForce (B : Body) (U : Update) (dt : ℝ) (y v : Nat → V3) (s : State) (P : Pre) (n : Nat)
    (bonds : List Bond) : Outcome Result :=
  if (List.range n).any (fun p => decide ((invert3 (P.grad p)).1 ≠ 0)) then .fail .terminate
  else do
    let k ← bonds.foldlM (kinBond B dt P y v s.stretch s.rotation)
      ⟨s.jacobian, s.inv, s.stretch, s.rotation, fun _ => zero⟩
    let sigma ← U dt k.rate s.stress
    let cauchy := fun b => rotateStress (k.rotation b) (sigma b)
    let piola := fun b => piolaBond (k.jacobian b) (cauchy b) (k.inv b)
    let S ← stressIntegral B s.w0 P.weights.omega piola n bonds
    let f ← scatter (fun b => B.volume b.i) (fun b => B.volume b.j)
      (forceBond B s.w0 P.weights piola S) bonds 0
    .ok ⟨P, k, sigma, cauchy, piola, S, f⟩

/-- One evaluation of the material: `precompute`, synchronisation, `computeForce`.
Models src/core/Peridigm_ModelEvaluator.cpp:75-110. -/
def evaluation (B : Body) (D : Decompose) (order : Nat) (U : Update) (dt : ℝ) (H : Harm)
    (u y v : Nat → V3) (g : Ghosts) (s : State) (n : Nat) (l : List Nat) : Outcome Result := do
  let bonds ← visitedBonds n l
  let P ← precompute B D order H u v n bonds s.weights g
  computeForce B U dt y v s P n bonds

/-- The state after a step whose last evaluation gave `r`. -/
def Result.next (r : Result) (s : State) : State where
  weights := r.pre.weights
  w0 := s.w0
  jacobian := r.kin.jacobian
  inv := r.kin.inv
  stretch := r.kin.stretch
  rotation := r.kin.rotation
  stress := r.stress

/-- `initialize`; bond damage is set to zero before the weights are computed.  `ghost` are the weighted
volumes received for ghost points.
Models src/materials/Peridigm_BondAssociatedCorrespondenceMaterial.cpp:361-569. -/
def initialState (B : Body) (D : Decompose) (order : Nat) (ghost : Nat → ℝ) (n : Nat) (l : List Nat) :
    Outcome State := do
  let bonds ← visitedBonds n l
  let w ← gradientWeights B D order (fun _ => 0) n bonds ⟨0, fun _ => 0, fun _ => 0, fun _ => 0⟩
  if w.code ≠ 0 then .fail .runtimeError
  else .ok { weights := w
             w0 := fun p => if p < n then weightedVolume B w.omega bonds n (fun _ => 0) p else ghost p
             jacobian := fun _ => 1
             inv := fun _ => identity
             stretch := fun _ => identity
             rotation := fun _ => identity
             stress := fun _ => zero }

end Verif.Assoc
