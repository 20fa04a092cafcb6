import Verif.Mech.Model
import Verif.Tensor.Model
import Mathlib.Analysis.SpecialFunctions.Trigonometric.Basic

/-!
# Correspondence materials: kinematics and forces (model)

Models `CorrespondenceMaterial::computeForce`, src/materials/Peridigm_CorrespondenceMaterial.cpp:187-397,
and the functions of src/materials/correspondence.cxx it calls.  The stress update, which the derived
classes implement, is an arbitrary function here; `Verif.Correspondence.StressModel` has the ones of
the elastic and plastic materials.

Numbers are exact reals and `ScalarT` is `double`.  Arrays of point data are functions from local
ids.  `scalarInfluenceFunction` (used for shape tensors) and `m_OMEGA` (used for forces) are kept apart.
-/

noncomputable section

namespace Verif.Correspondence

open Verif Verif.Neigh Verif.Mech Verif.Tensor
open scoped Classical

/-- Constant data of a block: reference positions, volumes, horizons, and the two ways to reach the
influence function.
Models src/materials/Peridigm_CorrespondenceMaterial.cpp:198-201. -/
structure Body where
  x : Nat → V3
  volume : Nat → ℝ
  horizon : Nat → ℝ
  /-- `scalarInfluenceFunction` -/
  omega : ℝ → ℝ → ℝ
  /-- `m_OMEGA` -/
  omegaForce : ℝ → ℝ → ℝ

/-- `undeformedBondX` etc.
Models src/materials/correspondence.cxx:869-871, 1002-1004, 1303-1305. -/
def xi (B : Body) (b : Bond) : V3 := B.x b.j - B.x b.i

/-- `temp`, `scalarTemp`; the placeholder `bondDamage` is zero.
Models src/materials/correspondence.cxx:843-844, 872-874, 880-882, 1005-1007, 1015-1017. -/
def weight (B : Body) (b : Bond) : ℝ :=
  (1 - 0) * B.omega (len (xi B b)) (B.horizon b.i) * B.volume b.j

/-- Adding a multiple of a dyadic product.
Models src/materials/correspondence.cxx:884-892, 894-902, 1019-1027. -/
def addOuter (t : M9) (c : ℝ) (a b : V3) : M9 :=
  { xx := t.xx + c * a 0 * b 0, xy := t.xy + c * a 0 * b 1, xz := t.xz + c * a 0 * b 2
    yx := t.yx + c * a 1 * b 0, yy := t.yy + c * a 1 * b 1, yz := t.yz + c * a 1 * b 2
    zx := t.zx + c * a 2 * b 0, zy := t.zy + c * a 2 * b 1, zz := t.zz + c * a 2 * b 2 }

/-- `shapeTensor` of a point with bonds `bs`.
Models src/materials/correspondence.cxx:854-856, 861-892. -/
def shapeTensor (B : Body) (bs : List Bond) : M9 :=
  bs.foldl (fun t b => addOuter t (weight B b) (xi B b) (xi B b)) zero

/-- `defGradFirstTerm` with `z` the coordinates, `FdotFirstTerm` with `z` the velocities.
Models src/materials/correspondence.cxx:857-859, 876-878, 894-902, 989-991, 1011-1013, 1019-1027. -/
def firstTerm (B : Body) (z : Nat → V3) (bs : List Bond) : M9 :=
  bs.foldl (fun t b => addOuter t (weight B b) (z b.j - z b.i) (xi B b)) zero

/-- The bonds of a point.
Models the loops src/materials/correspondence.cxx:861-862, 994-995 and
src/materials/Peridigm_CorrespondenceMaterial.cpp:327-329. -/
def bondsAt (bonds : List Bond) (p : Nat) : List Bond := bonds.filter fun b => b.i = p

/-- Return code, `shapeTensorInverse` and `deformationGradient`. -/
structure Shape where
  code : Nat
  inv : Nat → M9
  grad : Nat → M9

/-- One pass of the loop over points.
Models src/materials/correspondence.cxx:850-912. -/
def shapePoint (B : Body) (y : Nat → V3) (bonds : List Bond) (s : Shape) (p : Nat) : Shape where
  code := if 0 < (invert3 (shapeTensor B (bondsAt bonds p))).1
    then (invert3 (shapeTensor B (bondsAt bonds p))).1 else s.code
  inv := Function.update s.inv p (invert3 (shapeTensor B (bondsAt bonds p))).2
  grad := Function.update s.grad p (matrixMultiply false false 1
    (firstTerm B y (bondsAt bonds p)) (invert3 (shapeTensor B (bondsAt bonds p))).2)

/-- `computeShapeTensorInverseAndApproximateDeformationGradient`.
Models src/materials/correspondence.cxx:809-915. -/
def shapeAndGradient (B : Body) (y : Nat → V3) (n : Nat) (bonds : List Bond) (inv grad : Nat → M9) :
    Shape :=
  (List.range n).foldl (shapePoint B y bonds) ⟨0, inv, grad⟩

/-! ### Rotation tensor -/

/-- `rateOfDef`.
Models src/materials/correspondence.cxx:1041-1050. -/
def rateOfDeformation (L : M9) : M9 where
  xx := L.xx
  xy := 0.5 * (L.xy + L.yx)
  xz := 0.5 * (L.xz + L.zx)
  yx := 0.5 * (L.xy + L.yx)
  yy := L.yy
  yz := 0.5 * (L.yz + L.zy)
  zx := 0.5 * (L.xz + L.zx)
  zy := 0.5 * (L.yz + L.zy)
  zz := L.zz

/-- `spin`.
Models src/materials/correspondence.cxx:1052-1061. -/
def spin (L : M9) : M9 where
  xx := 0
  xy := 0.5 * (L.xy - L.yx)
  xz := 0.5 * (L.xz - L.zx)
  yx := -1 * (0.5 * (L.xy - L.yx))
  yy := 0
  yz := 0.5 * (L.yz - L.zy)
  zx := -1 * (0.5 * (L.xz - L.zx))
  zy := -1 * (0.5 * (L.yz - L.zy))
  zz := 0

/-- `zX`, `zY`, `zZ`.
Models src/materials/correspondence.cxx:1073-1081. -/
def zVector (V D : M9) : V3 :=
  ![-V.xz * D.yx - V.yz * D.yy - V.zz * D.yz + V.xy * D.zx + V.yy * D.zy + V.zy * D.zz,
    V.xz * D.xx + V.yz * D.xy + V.zz * D.xz - V.xx * D.zx - V.yx * D.zy - V.zx * D.zz,
    -V.xy * D.xx - V.yy * D.xy - V.zy * D.xz + V.xx * D.yx + V.yx * D.yy + V.zx * D.yz]

/-- `wX`, `wY`, `wZ`.
Models src/materials/correspondence.cxx:1083-1086. -/
def wVector (W : M9) : V3 :=
  ![0.5 * (W.zy - W.yz), 0.5 * (W.xz - W.zx), 0.5 * (W.yx - W.xy)]

/-- `trace(V) * I - V`.
Models src/materials/correspondence.cxx:1088-1100. -/
def traceMinus (V : M9) : M9 where
  xx := V.xx + V.yy + V.zz - V.xx
  xy := -V.xy
  xz := -V.xz
  yx := -V.yx
  yy := V.xx + V.yy + V.zz - V.yy
  yz := -V.yz
  zx := -V.zx
  zy := -V.zy
  zz := V.xx + V.yy + V.zz - V.zz

/-- `omegaX`, `omegaY`, `omegaZ` from `w`, the inverse `T` and `z`.
Models src/materials/correspondence.cxx:1107-1110. -/
def omegaVector (w : V3) (T : M9) (z : V3) : V3 :=
  ![w 0 + T.xx * z 0 + T.xy * z 1 + T.xz * z 2,
    w 1 + T.yx * z 0 + T.yy * z 1 + T.yz * z 2,
    w 2 + T.zx * z 0 + T.zy * z 1 + T.zz * z 2]

/-- `OmegaTensor`.
Models src/materials/correspondence.cxx:1112-1121. -/
def omegaTensor (o : V3) : M9 where
  xx := 0
  xy := -o 2
  xz := o 1
  yx := o 2
  yy := 0
  yz := -o 0
  zx := -o 1
  zy := o 0
  zz := 0

/-- `OmegaSq`.
Models src/materials/correspondence.cxx:1130. -/
def omegaSq (o : V3) : ℝ := o 0 * o 0 + o 1 * o 1 + o 2 * o 2

/-- The identity matrix.
Models src/materials/correspondence.cxx:1153-1155 and `setOnesOnDiagonalFullTensor`. -/
def identity : M9 := ⟨1, 0, 0, 0, 1, 0, 0, 0, 1⟩

/-- `I + s1 * A + s2 * B`.
Models src/materials/correspondence.cxx:1142-1150. -/
def combine (s1 s2 : ℝ) (A B : M9) : M9 where
  xx := 1 + s1 * A.xx + s2 * B.xx
  xy := s1 * A.xy + s2 * B.xy
  xz := s1 * A.xz + s2 * B.xz
  yx := s1 * A.yx + s2 * B.yx
  yy := 1 + s1 * A.yy + s2 * B.yy
  yz := s1 * A.yz + s2 * B.yz
  zx := s1 * A.zx + s2 * B.zx
  zy := s1 * A.zy + s2 * B.zy
  zz := 1 + s1 * A.zz + s2 * B.zz

/-- `QMatrix`.
Models src/materials/correspondence.cxx:1129-1156. -/
def qMatrix (dt : ℝ) (o : V3) : M9 :=
  if 1 / 10 ^ 30 < omegaSq o then
    combine (Real.sin (dt * Real.sqrt (omegaSq o)) / Real.sqrt (omegaSq o))
      (-(1 - Real.cos (dt * Real.sqrt (omegaSq o))) / omegaSq o)
      (omegaTensor o) (matrixMultiply false false 1 (omegaTensor o) (omegaTensor o))
  else identity

/-- The angular velocity `omega` from velocity gradient and left stretch.  The return code of the
inversion of `trace(V) * I - V` is not looked at: line 1104 tests the code of line 1034.
Models src/materials/correspondence.cxx:1041-1110. -/
def angularVelocity (L V : M9) : V3 :=
  omegaVector (wVector (spin L)) (invert3 (traceMinus V)).2 (zVector V (rateOfDeformation L))

/-- Difference of two matrices.
Models src/materials/correspondence.cxx:1169-1170. -/
def sub9 (a b : M9) : M9 :=
  ⟨a.xx - b.xx, a.xy - b.xy, a.xz - b.xz, a.yx - b.yx, a.yy - b.yy, a.yz - b.yz, a.zx - b.zx,
    a.zy - b.zy, a.zz - b.zz⟩

/-- A matrix plus a multiple of another.
Models src/materials/correspondence.cxx:1173-1174. -/
def addScaled (a : M9) (c : ℝ) (b : M9) : M9 :=
  ⟨a.xx + c * b.xx, a.xy + c * b.xy, a.xz + c * b.xz, a.yx + c * b.yx, a.yy + c * b.yy,
    a.yz + c * b.yz, a.zx + c * b.zx, a.zy + c * b.zy, a.zz + c * b.zz⟩

/-- `eulerianVelGrad` of a point with bonds `bs`, inverse shape tensor `Kinv` and deformation gradient
`F`.
Models src/materials/correspondence.cxx:988-1039. -/
def velocityGradient (B : Body) (v : Nat → V3) (bs : List Bond) (Kinv F : M9) : M9 :=
  matrixMultiply false false 1 (matrixMultiply false false 1 (firstTerm B v bs) Kinv) (invert3 F).2

/-- `rotTensorNP1`.
Models src/materials/correspondence.cxx:1123-1159. -/
def newRotation (dt : ℝ) (L V R : M9) : M9 :=
  matrixMultiply false false 1 (qMatrix dt (angularVelocity L V)) R

/-- `leftStretchNP1`.
Models src/materials/correspondence.cxx:1161-1174. -/
def newStretch (dt : ℝ) (L V : M9) : M9 :=
  addScaled V dt (sub9 (matrixMultiply false false 1 L V)
    (matrixMultiply false false 1 V (omegaTensor (angularVelocity L V))))

/-- `unrotRateOfDef` from the rate of deformation and the new rotation tensor.
Models src/materials/correspondence.cxx:1176-1180. -/
def unrotated (L R : M9) : M9 :=
  matrixMultiply true false 1 R (matrixMultiply false false 1 (rateOfDeformation L) R)

/-- Return code, `leftStretchTensorNP1`, `rotationTensorNP1` and `unrotatedRateOfDeformation`. -/
structure Rotation where
  code : Nat
  stretch : Nat → M9
  rotation : Nat → M9
  rate : Nat → M9

/-- One pass of the loop over points; `V`, `R` are the tensors of step N.
Models src/materials/correspondence.cxx:984-1181. -/
def rotationPoint (B : Body) (dt : ℝ) (v : Nat → V3) (bonds : List Bond) (k : Shape)
    (V R : Nat → M9) (s : Rotation) (p : Nat) : Rotation :=
  let L := velocityGradient B v (bondsAt bonds p) (k.inv p) (k.grad p)
  { code := if 0 < (invert3 (k.grad p)).1 then (invert3 (k.grad p)).1 else s.code
    stretch := Function.update s.stretch p (newStretch dt L (V p))
    rotation := Function.update s.rotation p (newRotation dt L (V p) (R p))
    rate := Function.update s.rate p (unrotated L (newRotation dt L (V p) (R p))) }

/-- `computeUnrotatedRateOfDeformationAndRotationTensor`.
Models src/materials/correspondence.cxx:917-1184. -/
def rotations (B : Body) (dt : ℝ) (v : Nat → V3) (n : Nat) (bonds : List Bond) (k : Shape)
    (V R : Nat → M9) (s : Rotation) : Rotation :=
  (List.range n).foldl (rotationPoint B dt v bonds k V R) { s with code := 0 }

/-! ### Forces -/

/-- `rotateCauchyStress` at one point.
Models src/materials/correspondence.cxx:1367-1374. -/
def rotateStress (R sigma : M9) : M9 :=
  matrixMultiply false false 1 R (matrixMultiply false true 1 sigma R)

/-- `piolaStress`.
Models src/materials/Peridigm_CorrespondenceMaterial.cpp:314-320. -/
def piola (F sigma : M9) : M9 := matrixMultiply false true (determinant F) sigma (invert3 F).2

/-- `TX`, `TY`, `TZ` from the matrix `temp`.
Models src/materials/Peridigm_CorrespondenceMaterial.cpp:334-344. -/
def bondForce (B : Body) (t : M9) (b : Bond) : V3 :=
  ![B.omegaForce (len (xi B b)) (B.horizon b.i) * (t.xx * xi B b 0 + t.xy * xi B b 1 + t.xz * xi B b 2),
    B.omegaForce (len (xi B b)) (B.horizon b.i) * (t.yx * xi B b 0 + t.yy * xi B b 1 + t.yz * xi B b 2),
    B.omegaForce (len (xi B b)) (B.horizon b.i) * (t.zx * xi B b 0 + t.zy * xi B b 1 + t.zz * xi B b 2)]

/-- Adding to the partial stress of a point.
Models src/materials/Peridigm_CorrespondenceMaterial.cpp:359-368. -/
def addPartial (t : M9) (T x : V3) (v : ℝ) : M9 where
  xx := t.xx + T 0 * x 0 * v
  xy := t.xy + T 0 * x 1 * v
  xz := t.xz + T 0 * x 2 * v
  yx := t.yx + T 1 * x 0 * v
  yy := t.yy + T 1 * x 1 * v
  yz := t.yz + T 1 * x 2 * v
  zx := t.zx + T 2 * x 0 * v
  zy := t.zy + T 2 * x 1 * v
  zz := t.zz + T 2 * x 2 * v

/-- Force densities and partial stresses. -/
structure Forces where
  force : Nat → V3
  partialStress : Nat → M9

/-- One bond.
Models src/materials/Peridigm_CorrespondenceMaterial.cpp:331-368. -/
def forceBond (B : Body) (t : M9) (s : Forces) (b : Bond) : Forces where
  force := scatterStep (fun b => B.volume b.i) (fun b => B.volume b.j) s.force b (bondForce B t b)
  partialStress := Function.update s.partialStress b.i
    (addPartial (s.partialStress b.i) (bondForce B t b) (xi B b) (B.volume b.j))

/-- One pass of the loop over points.
Models src/materials/Peridigm_CorrespondenceMaterial.cpp:309-370. -/
def forcePoint (B : Body) (bonds : List Bond) (k : Shape) (sigma : Nat → M9) (s : Forces) (p : Nat) :
    Outcome Forces :=
  if (invert3 (k.grad p)).1 ≠ 0 then .fail .terminate
  else .ok ((bondsAt bonds p).foldl
    (forceBond B (matrixMultiply false false 1 (piola (k.grad p) (sigma p)) (k.inv p))) s)

/-- `expectedNeighborLocation` minus the neighbor's coordinates.
Models src/materials/correspondence.cxx:1317-1332. -/
def hourglassVector (B : Body) (y : Nat → V3) (F : M9) (b : Bond) : V3 :=
  ![y b.i 0 + F.xx * xi B b 0 + F.xy * xi B b 1 + F.xz * xi B b 2 - y b.j 0,
    y b.i 1 + F.yx * xi B b 0 + F.yy * xi B b 1 + F.yz * xi B b 2 - y b.j 1,
    y b.i 2 + F.zx * xi B b 0 + F.zy * xi B b 1 + F.zz * xi B b 2 - y b.j 2]

/-- The pair force of `computeHourglassForce`; divisions by zero are undefined.
Models src/materials/correspondence.cxx:1287-1288, 1295, 1299-1337, 1343-1345. -/
def hourglassBond (B : Body) (y : Nat → V3) (F : Nat → M9) (bulk coefficient : ℝ) (b : Bond) :
    Outcome V3 :=
  let h := hourglassVector B y (F b.i) b
  let Y := y b.j - y b.i
  if B.horizon b.i = 0 ∨ len (xi B b) = 0 ∨ len Y = 0 then .ub
  else .ok fun c => (1 - 0) * (18 * coefficient * bulk / Real.pi /
      (B.horizon b.i * B.horizon b.i * B.horizon b.i * B.horizon b.i)) *
    (-1 * (h 0 * Y 0 + h 1 * Y 1 + h 2 * Y 2) / len (xi B b)) * (1 / len Y) * Y c

/-- `computeHourglassForce`.
Models src/materials/correspondence.cxx:1251-1351. -/
def hourglass (B : Body) (y : Nat → V3) (F : Nat → M9) (bulk coefficient : ℝ) (bonds : List Bond) :
    Outcome (Nat → V3) :=
  scatter (fun b => B.volume b.i) (fun b => B.volume b.j) (hourglassBond B y F bulk coefficient) bonds 0

/-! ### The material -/

/-- Arrays the material keeps: those of step N are the input, those of step N+1 the output.  The
remaining arrays are overwritten. -/
structure State where
  stretch : Nat → M9
  rotation : Nat → M9
  stress : Nat → M9

/-- Output of `computeForce`. -/
structure Result where
  shape : Shape
  kinematics : Rotation
  /-- `unrotatedCauchyStressNP1` -/
  stress : Nat → M9
  /-- `cauchyStressNP1` -/
  cauchy : Nat → M9
  forces : Forces
  hourglass : Nat → V3

/-- The total force density.
Models src/materials/Peridigm_CorrespondenceMaterial.cpp:393-396. -/
def Result.total (r : Result) : Nat → V3 := fun p => r.hourglass p + r.forces.force p

/-- Parameters of the material and `computeCauchyStress` of the derived class: time step, unrotated
rate of deformation and unrotated stress at step N give the unrotated stress at step N+1. -/
structure Material where
  bulk : ℝ
  hourglassCoefficient : ℝ
  update : ℝ → (Nat → M9) → (Nat → M9) → Outcome (Nat → M9)

/-- The arrays as they are before the call, where it does not set them. -/
structure Stale where
  shape : Shape
  kinematics : Rotation

/-- `CorrespondenceMaterial::computeForce` for a block whose loops visit `bonds`.
Models src/materials/Peridigm_CorrespondenceMaterial.cpp:187-397. -/
def forceOn (B : Body) (M : Material) (dt : ℝ) (y v : Nat → V3) (s : State) (old : Stale) (n : Nat)
    (bonds : List Bond) : Outcome Result :=
  let k := shapeAndGradient B y n bonds old.shape.inv old.shape.grad
  if k.code ≠ 0 then .fail .terminate
  else
    let r := rotations B dt v n bonds k s.stretch s.rotation old.kinematics
    if r.code ≠ 0 then .fail .terminate
    else do
      let sigma ← M.update dt r.rate s.stress
      let f ← (List.range n).foldlM (forcePoint B bonds k fun p => rotateStress (r.rotation p) (sigma p))
        ⟨0, fun _ => zero⟩
      let h ← hourglass B y k.grad M.bulk M.hourglassCoefficient bonds
      .ok ⟨k, r, sigma, fun p => rotateStress (r.rotation p) (sigma p), f, h⟩

/-- `CorrespondenceMaterial::computeForce`.
Models src/materials/Peridigm_CorrespondenceMaterial.cpp:187-397. -/
def computeForce (B : Body) (M : Material) (dt : ℝ) (y v : Nat → V3) (s : State) (old : Stale) (n : Nat)
    (l : List Nat) : Outcome Result := do
  let bonds ← visitedBonds n l
  forceOn B M dt y v s old n bonds

end Verif.Correspondence
