import Verif.Assoc.Model

/-!
# Bond-associated correspondence material: the fields written for points (model)

Stretch, rotation, stress and strain of the points, which `computeForce` of the material evaluates "for
visualization" next to those of the bonds.  Entries of points that are not owned are not written; in the
model they keep the values of step N.
-/

noncomputable section

namespace Verif.Assoc

open Verif Verif.Neigh Verif.Mech Verif.Tensor
open Verif.Correspondence (identity newStretch newRotation unrotated rotateStress)
open scoped Classical

/-- Tensors of the points at step N: `Left_Stretch_Tensor`, `Rotation_Tensor`, `Unrotated_Cauchy_Stress`,
`Green_Lagrange_Strain`.
Models src/materials/Peridigm_BondAssociatedCorrespondenceMaterial.cpp:617-618, 644-648 and
src/materials/Peridigm_ElasticBondAssociatedCorrespondenceMaterial.cpp:103-107. -/
structure Shown where
  stretch : Nat → M9
  rotation : Nat → M9
  stress : Nat → M9
  strain : Nat → M9

/-- `greenLagrangeStrainNP1` of a point from the deformation gradient `F`, its rate and the strain of step N.
Models src/materials/correspondence.cxx:4127-4138. -/
def strainStep (dt : ℝ) (F rate E : M9) : M9 :=
  let t := matrixMultiply true false 1 rate F
  { xx := E.xx + 0.5 * (t.xx + t.xx) * dt
    xy := E.xy + 0.5 * (t.xy + t.yx) * dt
    xz := E.xz + 0.5 * (t.xz + t.zx) * dt
    yx := E.yx + 0.5 * (t.yx + t.xy) * dt
    yy := E.yy + 0.5 * (t.yy + t.yy) * dt
    yz := E.yz + 0.5 * (t.yz + t.zy) * dt
    zx := E.zx + 0.5 * (t.zx + t.xz) * dt
    zy := E.zy + 0.5 * (t.zy + t.yz) * dt
    zz := E.zz + 0.5 * (t.zz + t.zz) * dt }

/-- `updateGreenLagrangeStrain`.
Models src/materials/correspondence.cxx:4093-4140. -/
def updateStrain (dt : ℝ) (P : Pre) (n : Nat) (E : Nat → M9) : Nat → M9 :=
  (List.range n).foldl (fun a p => Function.update a p (strainStep dt (P.grad p) (P.gradDot p) (E p))) E

/-- Return code, `leftStretchTensorNP1`, `rotationTensorNP1` and `unrotatedRateOfDeformation`. -/
structure NodeKin where
  code : Nat
  stretch : Nat → M9
  rotation : Nat → M9
  rate : Nat → M9

/-- One point of `computeNodeLevelUnrotatedRateOfDeformationAndRotationTensor`; `V`, `R` are the tensors of step
N.  The return code of the inversion of `trace(V) I - V` is ignored, as in the code (3531).
Models src/materials/correspondence.cxx:3446-3606. -/
def nodePoint (dt : ℝ) (P : Pre) (V R : Nat → M9) (k : NodeKin) (p : Nat) : NodeKin :=
  let i := invert3 (P.grad p)
  let L := matrixMultiply false false 1 (P.gradDot p) i.2
  let R' := newRotation dt L (V p) (R p)
  { code := if 0 < i.1 then i.1 else k.code
    stretch := Function.update k.stretch p (newStretch dt L (V p))
    rotation := Function.update k.rotation p R'
    rate := Function.update k.rate p (unrotated L R') }

/-- `computeNodeLevelUnrotatedRateOfDeformationAndRotationTensor`.
Models src/materials/correspondence.cxx:3389-3611. -/
def nodeKin (dt : ℝ) (P : Pre) (n : Nat) (o : Shown) : NodeKin :=
  (List.range n).foldl (nodePoint dt P o.stretch o.rotation) ⟨0, o.stretch, o.rotation, fun _ => zero⟩

/-- What an evaluation writes for the points. -/
structure Written where
  kept : Shown
  /-- unrotated rate of deformation -/
  rate : Nat → M9
  /-- Cauchy stress -/
  cauchy : Nat → M9

/-- The node-level part of `computeForce`; `N` is the node-level part of `computeCauchyStress` of the derived class.
Models src/materials/Peridigm_BondAssociatedCorrespondenceMaterial.cpp:612-631, 697-717, 791-817,
src/materials/correspondence.cxx:1350-1375 and
src/materials/Peridigm_ElasticBondAssociatedCorrespondenceMaterial.cpp:101-123. -/
def written (N : Update) (dt : ℝ) (P : Pre) (n : Nat) (o : Shown) : Outcome Written :=
  let E := updateStrain dt P n o.strain
  let k := nodeKin dt P n o
  if k.code ≠ 0 then .fail .terminate
  else do
    let sigma ← N dt k.rate o.stress
    .ok ⟨⟨k.stretch, k.rotation, sigma, E⟩, k.rate, fun p => rotateStress (k.rotation p) (sigma p)⟩

/-- An evaluation with what it writes for the points.
Models src/materials/Peridigm_BondAssociatedCorrespondenceMaterial.cpp:571-1026. -/
def evaluationWritten (B : Body) (D : Decompose) (order : Nat) (U N : Update) (dt : ℝ) (H : Harm) (u y v : Nat → V3)
    (g : Ghosts) (s : State) (o : Shown) (n : Nat) (l : List Nat) : Outcome (Result × Written) := do
  let r ← evaluation B D order U dt H u y v g s n l
  let w ← written N dt r.pre n o
  .ok (r, w)

/-- The tensors of the points after `initialize`.
Models src/materials/Peridigm_BondAssociatedCorrespondenceMaterial.cpp:378-402. -/
def shownStart : Shown := ⟨fun _ => identity, fun _ => identity, fun _ => zero, fun _ => zero⟩

end Verif.Assoc
