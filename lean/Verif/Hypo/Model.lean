import Verif.Assoc.Model
import Verif.Return.Model

/-!
# Hypoelastic correspondence material (model)

Models `HypoelasticCorrespondenceMaterial` (src/materials/Peridigm_HypoelasticCorrespondenceMaterial.cpp), the
functions of src/materials/correspondence.cxx it calls, and the elastic, perfectly plastic and power-law
hardening stress updates of its derived classes, for the double instantiation over the reals.

The material works on the current configuration.  The bond arithmetic on given coordinates and volumes is that
of the bond-associated material (`Verif.Assoc`), applied to the body that has the current coordinates and the
volumes times the Jacobian determinants.

Simplifications: the singular value decomposition is a parameter, as there.  The influence of a bond, which
the code computes anew wherever it is needed, is computed once.  Arrays that are only read at the points or
bonds for which they have been written in the same evaluation (gradient weights, velocity gradients, rates of
deformation, Cauchy stresses, integrals) start from zero in each evaluation instead of from their old values;
the output of those fields at flying points is not modelled.
-/

noncomputable section

namespace Verif.Hypo

open Verif Verif.Neigh Verif.Mech Verif.Tensor
open Verif.Assoc (Body Decompose Weights storeAll influenceOf evaluate gradientAt bondGradient lenSq integralBond
  forceBond)
open Verif.Correspondence (bondsAt identity newStretch newRotation unrotated rotateStress addScaled PlasticOut
  trialStress devStress misesOf devStrain plasticOut perfectPoint elasticPoint deltaLambda)
open scoped Classical

/-- Constant data of a block; `horizon` is the parameter "Actual Horizon", which `initialize` puts into the
field of horizons.
Models src/materials/Peridigm_HypoelasticCorrespondenceMaterial.cpp:61, 144, 338. -/
structure Block where
  volume : Nat → ℝ
  horizon : ℝ
  /-- `scalarInfluenceFunction`, `m_OMEGA` -/
  influence : ℝ → ℝ → ℝ

/-- The body in its current configuration: coordinates of step N+1 and volumes with the Jacobian determinants
of step N.
Models src/materials/correspondence.cxx:690-697, 1409-1416, 1801. -/
def current (B : Block) (J : Nat → ℝ) (y : Nat → V3) : Body where
  x := y
  volume := fun p => J p * B.volume p
  horizon := fun _ => B.horizon
  influence := B.influence

/-- Flying point flag and bond damage of step N.
Models src/materials/Peridigm_HypoelasticCorrespondenceMaterial.cpp:525-527, 978-979. -/
structure Harm where
  flag : Nat → ℝ
  bondDamage : Nat → ℝ

/-! ### Before the stresses -/

/-- One pass of the loop of `computeGradientWeights`.  The record of weights is that of the bond-associated
material; its flag is not used.
Models src/materials/correspondence.cxx:675-803. -/
def weightsPoint (C : Body) (D : Decompose) (order : Nat) (H : Harm) (bonds : List Bond) (s : Weights) (p : Nat) :
    Outcome Weights :=
  if H.flag p < 1 / 2 then
    if C.horizon p = 0 then .ub
    else .ok { evaluate C D order H.bondDamage (bondsAt bonds p) s p with flag := s.flag }
  else .ok s

/-- `computeGradientWeights`.  With an order below one `&QVector[0]` is taken of an empty vector.  The influence
is filled in for the bonds of flying points too: it is not stored in the code.
Models src/materials/correspondence.cxx:602-808. -/
def gradientWeights (C : Body) (D : Decompose) (order : Nat) (H : Harm) (n : Nat) (bonds : List Bond) : Outcome Weights :=
  if order = 0 then .ub
  else (List.range n).foldlM (weightsPoint C D order H bonds)
    ⟨0, fun _ => 0, storeAll (influenceOf C H.bondDamage) bonds fun _ => 0, fun _ => 0⟩

/-- `computeUndamagedWeightedVolume` at a point.
Models src/materials/correspondence.cxx:1399-1421. -/
def undamagedVolume (C : Body) (bs : List Bond) : ℝ :=
  bs.foldl (fun t b => t + C.influence (len (Verif.Assoc.xi C b)) (C.horizon b.i) * C.volume b.j) 0

/-- `computeWeightedVolume` at a point.
Models src/materials/correspondence.cxx:1452-1474. -/
def damagedVolume (C : Body) (bondDamage : Nat → ℝ) (bs : List Bond) : ℝ :=
  bs.foldl (fun t b => t + (1 - bondDamage b.b) *
    C.influence (len (Verif.Assoc.xi C b)) (C.horizon b.i) * C.volume b.j) 0

/-- Sum of the diagonal of the velocity gradient.
Models src/materials/correspondence.cxx:1832. -/
def velGradTr (L : M9) : ℝ := L.xx + L.yy + L.zz

/-- Field values received from the owners of ghost points.
Models src/materials/Peridigm_HypoelasticCorrespondenceMaterial.hpp:89-100. -/
structure Ghosts where
  grad : Nat → M9
  jacobian : Nat → ℝ
  w : Nat → ℝ
  w0 : Nat → ℝ

/-- The results of `precompute`, after synchronisation.  `jacobian` is that of step N+1. -/
structure Pre where
  weights : Weights
  grad : Nat → M9
  jacobian : Nat → ℝ
  w : Nat → ℝ
  w0 : Nat → ℝ

/-- `precompute`.  Velocity gradients and Jacobian determinants of flying points are those that
`PutScalar(0.0)` left.
Models src/materials/Peridigm_HypoelasticCorrespondenceMaterial.cpp:936-1030 and
src/materials/correspondence.cxx:1764-1849. -/
def precompute (C : Body) (D : Decompose) (order : Nat) (dt : ℝ) (H : Harm) (J : Nat → ℝ) (v : Nat → V3) (n : Nat)
    (bonds : List Bond) (g : Ghosts) : Outcome Pre := do
  let w ← gradientWeights C D order H n bonds
  if w.code ≠ 0 then .fail .runtimeError
  else
    let L := fun p => gradientAt C w.phi zero v (bondsAt bonds p)
    .ok { weights := w
          grad := fun p => if p < n then (if H.flag p < 1 / 2 then L p else zero) else g.grad p
          jacobian := fun p =>
            if p < n then (if H.flag p < 1 / 2 then J p * (1 + velGradTr (L p) * dt) else 0) else g.jacobian p
          w := fun p => if p < n then damagedVolume C H.bondDamage (bondsAt bonds p) else g.w p
          w0 := fun p => if p < n then undamagedVolume C (bondsAt bonds p) else g.w0 p }

/-! ### Stresses -/

/-- What is kept, with two states, at a point or bond: left stretch, rotation, unrotated Cauchy stress and the
variables of the derived class. -/
structure Site (α : Type) where
  stretch : M9
  rotation : M9
  stress : M9
  internal : α

/-- The stress update of the derived class at a point or bond: time step, unrotated rate of deformation,
stress and variables with two states at step N, variables with one state as found. -/
abbrev Law (α β : Type) := ℝ → M9 → M9 → α → β → Outcome (M9 × α × β)

/-- Rotation tensor, stretch and stress of a point or bond with velocity gradient `L`.  The return codes of the
inversions in the update of the rotation are not looked at.
Models src/materials/correspondence.cxx:2205-2368, 2508-2725. -/
def advance {α β : Type} (law : Law α β) (dt : ℝ) (L : M9) (s : Site α) (o : β) : Outcome (Site α × β) := do
  let R := newRotation dt L s.stretch s.rotation
  let r ← law dt (unrotated L R) s.stress s.internal o
  .ok (⟨newStretch dt L s.stretch, R, r.1, r.2.1⟩, r.2.2)

/-- The loops over the points that do not fly, or over their bonds; `ks` are positions with velocity gradients,
`old` the values of step N, the accumulator the arrays as found.
Models src/materials/correspondence.cxx:2168-2370, 2372-2748 and the loops of the stress updates, e.g.
src/materials/elastic_correspondence.cxx:193-275, 427-600. -/
def advanceAll {α β : Type} (law : Law α β) (dt : ℝ) (old : Nat → Site α) (ks : List (Nat × M9))
    (s : (Nat → Site α) × (Nat → β)) : Outcome ((Nat → Site α) × (Nat → β)) :=
  ks.foldlM (fun s k => do
    let r ← advance law dt k.2 (old k.1) (s.2 k.1)
    .ok (Function.update s.1 k.1 r.1, Function.update s.2 k.1 r.2)) s

/-- The derived class: the updates at points and at bonds. -/
structure Material (α β : Type) where
  node : Law α β
  bond : Law α β

/-- The elastic material; the variable with one state is the von Mises stress.
Models src/materials/elastic_correspondence.cxx:193-275, 427-600 and
src/materials/Peridigm_ElasticHypoelasticCorrespondenceMaterial.cpp. -/
def elasticLaw (bulk shear : ℝ) : Law Unit ℝ := fun dt D sigma _ _ =>
  .ok (elasticPoint bulk shear dt none D sigma, (), misesOf (devStress (elasticPoint bulk shear dt none D sigma)))

/-- The elastic material, on points and bonds. -/
def elastic (bulk shear : ℝ) : Material Unit ℝ := ⟨elasticLaw bulk shear, elasticLaw bulk shear⟩

/-- Von Mises stress and stress triaxiality, which have one state only. -/
structure Extra where
  mises : ℝ
  triaxiality : ℝ

/-- The results of a plastic update as those of a law. -/
def plasticResult (o : PlasticOut) : M9 × ℝ × Extra :=
  (o.stress, o.eqps, ⟨o.mises, Verif.Return.triaxialityOf o.stress o.mises⟩)

/-- `updateElasticPerfectlyPlasticCauchyStress` with flying point flag, and the bond version.
Models src/materials/elastic_plastic_correspondence.cxx:242-436, 625-918. -/
def perfectLaw (bulk shear yield : ℝ) : Law ℝ Extra := fun dt D sigma eqps _ => do
  let o ← perfectPoint bulk shear yield dt D sigma eqps
  .ok (plasticResult o)

/-- The perfectly plastic material.
Models src/materials/Peridigm_ElasticPlasticHypoelasticCorrespondenceMaterial.cpp. -/
def perfect (bulk shear yield : ℝ) : Material ℝ Extra := ⟨perfectLaw bulk shear yield, perfectLaw bulk shear yield⟩

/-- `yieldFunctionVal` after the two estimates of `deltaLambda`, with yield stress `y` at step N, deviatoric
strain increment `e` and deviatoric trial stress `S` and stress `SN`.
Models src/materials/isotropic_hardening_correspondence.cxx:486-527, 935-980. -/
def powerYield (rule : Verif.Return.Rule) (shear y eqps : ℝ) (e S SN : M9) : Outcome ℝ := do
  let hN ← Verif.Return.hardMod rule eqps
  if 2 * (hN + 3 * shear) = 0 then .ub
  else
    let h1 ← Verif.Return.hardMod rule (eqps + Real.sqrt (2 / 3) * deltaLambda shear hN y e S SN)
    let hard := 0.5 * (hN + h1)
    if 2 * (hard + 3 * shear) = 0 then .ub
    else Verif.Return.hardened rule (eqps + Real.sqrt (2 / 3) * deltaLambda shear hard y e S SN)

/-- `updateElasticIsotropicPowerlawHardeningPlasticCauchyStress` at a point: the triaxiality is only computed in
the branch that looks at the hardened yield surface.
Models src/materials/isotropic_hardening_correspondence.cxx:328-613. -/
def powerNode (bulk shear : ℝ) (rule : Verif.Return.Rule) : Law ℝ Extra := fun dt D sigma eqps o => do
  let t := trialStress bulk shear dt D sigma
  let y ← Verif.Return.hardened rule eqps
  if misesOf (devStress t) < y then .ok (t, eqps, ⟨misesOf (devStress t), o.triaxiality⟩)
  else
    let y' ← powerYield rule shear y eqps (devStrain dt D) (devStress t) (devStress sigma)
    if y' < misesOf (devStress t) then
      if shear = 0 then .ub else .ok (plasticResult (plasticOut shear y' (devStrain dt D) t sigma eqps))
    else .ok (plasticResult ⟨t, misesOf (devStress t), eqps⟩)

/-- `updateBondLevelElasticIsotropicPowerlawHardeningPlasticCauchyStress` at a bond: the stress is always scaled
to the hardened yield surface once the step has been found plastic.
Models src/materials/isotropic_hardening_correspondence.cxx:722-1095. -/
def powerBond (bulk shear : ℝ) (rule : Verif.Return.Rule) : Law ℝ Extra := fun dt D sigma eqps _ => do
  let t := trialStress bulk shear dt D sigma
  let y ← Verif.Return.hardened rule eqps
  if misesOf (devStress t) < y then .ok (plasticResult ⟨t, misesOf (devStress t), eqps⟩)
  else
    let y' ← powerYield rule shear y eqps (devStrain dt D) (devStress t) (devStress sigma)
    if shear = 0 then .ub else .ok (plasticResult (plasticOut shear y' (devStrain dt D) t sigma eqps))

/-- The power-law hardening material.
Models src/materials/Peridigm_IsotropicHardeningPlasticHypoelasticCorrespondenceMaterial.cpp. -/
def power (bulk shear yield strain exponent : ℝ) : Material ℝ Extra :=
  ⟨powerNode bulk shear (.powerLaw yield strain exponent), powerBond bulk shear (.powerLaw yield strain exponent)⟩

/-! ### The evaluation -/

/-- Arrays with two states: deformation gradient of points, data of points and of bonds. -/
structure Arrays (α : Type) where
  grad : Nat → M9
  nodes : Nat → Site α
  bonds : Nat → Site α

/-- The data of the material: Jacobian determinants of step N, arrays of step N, arrays of step N+1 as they are
found, and the variables of the derived class with one state. -/
structure State (α β : Type) where
  jacobian : Nat → ℝ
  now : Arrays α
  found : Arrays α
  nodeExtra : Nat → β
  bondExtra : Nat → β

/-- `updateDeformationGradient` at a point.
Models src/materials/correspondence.cxx:2092-2129. -/
def newGradient (dt : ℝ) (L F : M9) : M9 := addScaled F dt (matrixMultiply false false 1 L F)

/-- `computeGreenLagrangeStrain` at a point.
Models src/materials/correspondence.cxx:2131-2165. -/
def greenLagrange (F : M9) : M9 :=
  Verif.Correspondence.scaled (Verif.Correspondence.diagAdd (matrixMultiply true false 1 F F) (-1)) 0.5

/-- Output of an evaluation.  `cauchy`, `strain` and `integral` are those of points that do not fly, `bondGrad` and
`bondCauchy` those of their bonds. -/
structure Result (α β : Type) where
  pre : Pre
  arrays : Arrays α
  nodeExtra : Nat → β
  bondExtra : Nat → β
  /-- `bondLevelVelocityGradientXX` etc. -/
  bondGrad : Nat → M9
  strain : Nat → M9
  cauchy : Nat → M9
  bondCauchy : Nat → M9
  integral : Nat → M9
  force : Nat → V3

/-- The owned points that do not fly. -/
def livePoints (H : Harm) (n : Nat) : List Nat := (List.range n).filter fun p => decide (H.flag p < 0)

/-- The bonds of the owned points that do not fly. -/
def liveBonds (H : Harm) (bonds : List Bond) : List Bond := bonds.filter fun b => decide (H.flag b.i < 0)

/-- `computeNonhomogeneityIntegral`.
Models src/materials/correspondence.cxx:2908-3036. -/
def integral (C : Body) (w0 omega : Nat → ℝ) (sigma : Nat → M9) (ps : List Nat) (bonds : List Bond) :
    Outcome (Nat → M9) :=
  ps.foldlM (fun S p => do
    let t ← (bondsAt bonds p).foldlM (integralBond C w0 omega sigma) zero
    .ok (Function.update S p t)) fun _ => zero

/-- `computeForce` after `precompute` and synchronisation; `C` is the current body.  Forces have been set to zero
by the caller.  A bond of length zero of a point that does not fly divides by zero.
Models src/materials/Peridigm_HypoelasticCorrespondenceMaterial.cpp:484-934 and
src/materials/correspondence.cxx:1964-2090, 2750-2905. -/
def computeForce {α β : Type} (C : Body) (M : Material α β) (dt : ℝ) (H : Harm) (J : Nat → ℝ) (v : Nat → V3) (s : State α β)
    (P : Pre) (n : Nat) (bonds : List Bond) : Outcome (Result α β) :=
  if (liveBonds H bonds).any (fun b => decide (lenSq (Verif.Assoc.xi C b) = 0)) then .ub
  else do
    let nodes ← advanceAll M.node dt s.now.nodes ((livePoints H n).map fun p => (p, P.grad p)) (s.found.nodes, s.nodeExtra)
    let L := storeAll (bondGradient C P.grad v) (liveBonds H bonds) fun _ => zero
    let bs ← advanceAll M.bond dt s.now.bonds ((liveBonds H bonds).map fun b => (b.b, L b.b))
      (s.found.bonds, s.bondExtra)
    let grad := fun p => if p < n ∧ H.flag p < 0 then newGradient dt (P.grad p) (s.now.grad p) else s.found.grad p
    let sigma := fun k => rotateStress (bs.1 k).rotation (bs.1 k).stress
    let S ← integral C P.w0 P.weights.omega sigma (livePoints H n) bonds
    let f ← scatter (fun b => J b.j * C.volume b.i) (fun b => J b.i * C.volume b.j)
      (forceBond C P.w0 P.weights sigma S) (liveBonds H bonds) 0
    .ok { pre := P
          arrays := ⟨grad, nodes.1, bs.1⟩
          nodeExtra := nodes.2
          bondExtra := bs.2
          bondGrad := L
          strain := fun p => greenLagrange (grad p)
          cauchy := fun p => rotateStress (nodes.1 p).rotation (nodes.1 p).stress
          bondCauchy := sigma
          integral := S
          force := f }

/-- One evaluation of the material: `precompute`, synchronisation, `computeForce`; `y` and `v` are coordinates
and velocities of step N+1.
Models src/core/Peridigm_ModelEvaluator.cpp:75-110. -/
def evaluation {α β : Type} (B : Block) (D : Decompose) (order : Nat) (M : Material α β) (dt : ℝ) (H : Harm)
    (y v : Nat → V3) (g : Ghosts) (s : State α β) (n : Nat) (l : List Nat) : Outcome (Result α β) := do
  let bonds ← visitedBonds n l
  let P ← precompute (current B s.jacobian y) D order dt H s.jacobian v n bonds g
  computeForce (current B s.jacobian y) M dt H s.jacobian v s P n bonds

/-- The state after a step whose last evaluation gave `r`: the states are exchanged.
Models the effect of src/core/Peridigm_DataManager.hpp:159-175 (see `Verif.Data`). -/
def Result.next {α β : Type} (r : Result α β) (s : State α β) : State α β where
  jacobian := r.pre.jacobian
  now := r.arrays
  found := s.now
  nodeExtra := r.nodeExtra
  bondExtra := r.bondExtra

/-- The state if another evaluation follows in the same step. -/
def Result.again {α β : Type} (r : Result α β) (s : State α β) : State α β where
  jacobian := s.jacobian
  now := s.now
  found := r.arrays
  nodeExtra := r.nodeExtra
  bondExtra := r.bondExtra

/-- A point or bond at the beginning. -/
def Site.start {α : Type} (a : α) : Site α := ⟨identity, identity, zero, a⟩

/-- `initialize`, with the variables of the derived class.
Models src/materials/Peridigm_HypoelasticCorrespondenceMaterial.cpp:326-482. -/
def initialState {α β : Type} (a : α) (o : β) : State α β where
  jacobian := fun _ => 1
  now := ⟨fun _ => identity, fun _ => .start a, fun _ => .start a⟩
  found := ⟨fun _ => identity, fun _ => .start a, fun _ => .start a⟩
  nodeExtra := fun _ => o
  bondExtra := fun _ => o

end Verif.Hypo
