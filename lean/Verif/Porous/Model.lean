import Verif.Fad.Model
import Verif.Diffusion.Model

/-!
# The tangent of the coupled material by automatic differentiation (model)

Models `MultiphysicsElasticMaterial::computeAutomaticDifferentiationJacobian`, which forms the tangent of the problem with
four unknowns at each point, its three coordinates and its fluid pressure, with the kernels `computeDilatation`,
`computeInternalForceLinearElasticCoupled` and `computeInternalFluidFlow` for the scalar type
`Sacado::Fad::DFad<double>`.

Simplifications: those of the tangent of the elastic material (`Verif.Fad.Model`): exact arithmetic, and `none` stands for an
evaluation in which some number is not finite.  In the code such a number reaches derivatives of the force on, or the flow
to, the point of the neighborhood.  The field "Damage" is fetched but not read and is left out.
-/

noncomputable section

namespace Verif.Porous

open Verif Verif.Neigh Verif.Mech Verif.Tangent Verif.Fad
open Verif.Diffusion (Fluid viscosityAt nonlocalPermeability multiphysicsMaterial)
open scoped Classical

/-! ### The kernels with numbers that carry derivatives -/

/-- `pow(a, 4.0)`, as used in src/materials/nonlocal_diffusion.cxx:181. -/
def fourth (a : Num) : Num := ⟨a.val ^ 4, fun k => 4 * a.val ^ 3 * a.dx k⟩

/-- The pairs of row and column in the order of the loops.
Models src/materials/nonlocal_diffusion.cxx:168-169. -/
def places : List (Fin 3 × Fin 3) := [(0, 0), (0, 1), (0, 2), (1, 0), (1, 1), (1, 2), (2, 0), (2, 1), (2, 2)]

/-- `effectivePermeability` in the direction of the bond, before damage.
Models src/materials/nonlocal_diffusion.cxx:141-143 and 167-172. -/
def permeability (P : Fluid) (d : Num3) : Num :=
  places.foldl (fun a rc => a + (d rc.1).scale (nonlocalPermeability P rc.1 rc.2) * d rc.2) (Num.const 0)

/-- `effectivePermeability` with damage.  Models src/materials/nonlocal_diffusion.cxx:177. -/
def damagedPermeability (P : Fluid) (damage : ℝ) (k : Num) : Num :=
  k + (Num.const P.maxPermeability - k).scale (1 / (1 + Real.exp (P.alpha * (damage - P.inflection))))

/-- `q`.  Models src/materials/nonlocal_diffusion.cxx:134-181. -/
def bondFlow (C : Config) (P : Fluid) (Y : Nat → Num3) (p : Nat → Num) (b : Bond) : Option Num := do
  let dY ← bondLength Y b
  if viscosityAt C P b.i = 0 then none
  else if Real.pi * C.horizon * C.horizon = 0 then none
  else
    let k := damagedPermeability P (C.damage b.b) (permeability P (bondVector Y b))
    let r ← k.div (fourth dY)
    some (r.scale (P.density / viscosityAt C P b.i * (4 / (Real.pi * C.horizon * C.horizon))) * (p b.j - p b.i))

/-- Adding the flow at both ends.  Models src/materials/nonlocal_diffusion.cxx:183-184. -/
def addFlow (C : Config) (Q : Nat → Num) (b : Bond) (q : Num) : Nat → Num :=
  let Q1 := Function.update Q b.i (Q b.i + q.scale (C.v b.j))
  Function.update Q1 b.j (Q1 b.j - q.scale (C.v b.i))

/-- The loop over the bonds.  Models src/materials/nonlocal_diffusion.cxx:115-186. -/
def flows (C : Config) (P : Fluid) (Y : Nat → Num3) (p : Nat → Num) : List Bond → (Nat → Num) → Option (Nat → Num)
  | [], Q => some Q
  | b :: bs, Q => do
    let q ← bondFlow C P Y p b
    flows C P Y p bs (addFlow C Q b q)

/-- The pair force of a bond, with the pressure of the fluid; `dsf` is the surface correction factor.
Models src/materials/nonlocal_diffusion.cxx:473-501. -/
def bondForce (C : Config) (K mu : ℝ) (dsf : Nat → ℝ) (Y : Nat → Num3) (p : Nat → Num) (theta : Num) (b : Bond) :
    Option Num3 := do
  let dY ← bondLength Y b
  if C.m b.i = 0 then none
  else
    let alpha := 15 * mu / C.m b.i * dsf b.i
    let e := extension C b dY
    let c1 := (theta.scale (C.om b)).scale (3 * K / C.m b.i - alpha / 3) - (p b.i).scale (3 * C.om b / C.m b.i * 1)
    let t := (c1.scale (C.zeta b) + e.scale ((1 - C.damage b.b) * C.om b * alpha)).scale (1 - C.damage b.b)
    let fx ← (t * bondVector Y b 0).div dY
    let fy ← (t * bondVector Y b 1).div dY
    let fz ← (t * bondVector Y b 2).div dY
    some ![fx, fy, fz]

/-- The loop over the bonds.  Models src/materials/nonlocal_diffusion.cxx:469-510. -/
def forces (C : Config) (K mu : ℝ) (dsf : Nat → ℝ) (Y : Nat → Num3) (p : Nat → Num) (theta : Num) :
    List Bond → (Nat → Num3) → Option (Nat → Num3)
  | [], F => some F
  | b :: bs, F => do
    let f ← bondForce C K mu dsf Y p theta b
    forces C K mu dsf Y p theta bs (addForce C F b f)

/-! ### The neighborhood of one point -/

/-- The material and the data of all points and bonds, by global id: those of the solid, the constants of the fluid, and the
surface correction factors. -/
structure Body where
  solid : Solid
  fluid : Fluid
  dsf : Nat → ℝ

/-- Forces and flows in the neighborhood of a point, from its coordinates and pressures. -/
abbrev Rates := List Nat → (Nat → ℝ) → (Nat → ℝ) → Outcome ((Nat → ℝ) × (Nat → ℝ))

/-- Force density and flow density in the neighborhood of one point, with `double`.
Models src/materials/Peridigm_MultiphysicsElasticMaterial.cpp:195-262. -/
def coupledRates (B : Body) : Rates := fun gids y p => do
  let r ← multiphysicsMaterial (B.solid.hood gids y) B.solid.K B.solid.mu B.fluid (fun i => B.dsf (gids.getD i 0)) p 1
    (tempList (gids.length - 1)) fun _ => 0
  .ok (fun k => r.2.1 (k / 3) ⟨k % 3, Nat.mod_lt _ (by omega)⟩, r.2.2)

/-- The same with numbers that carry derivatives. -/
abbrev AdRates := List Nat → (Nat → ℝ) → (Nat → ℝ) → Option ((Nat → Num) × (Nat → Num))

/-- `y_AD` as it is filled; four unknowns belong to a point.
Models src/materials/Peridigm_MultiphysicsElasticMaterial.cpp:450-458. -/
def coordinateAd (y : Nat → ℝ) (i : Nat) : Num3 := fun c => Num.var (4 * i + c) (y (3 * i + c))

/-- `fPY_AD` as it is filled.
Models src/materials/Peridigm_MultiphysicsElasticMaterial.cpp:459-462. -/
def pressureAd (p : Nat → ℝ) (i : Nat) : Num := Num.var (4 * i + 3) (p i)

/-- `force_AD` and `fluidFlow_AD`.
Models src/materials/Peridigm_MultiphysicsElasticMaterial.cpp:463-478. -/
def coupledAd (B : Body) : AdRates := fun gids y p =>
  let C := B.solid.hood gids y
  match visitedBonds 1 (tempList (gids.length - 1)) with
  | .ok bs => do
    let theta ← dilatation C (coordinateAd y) bs (Num.const 0)
    let F ← forces C B.solid.K B.solid.mu (fun i => B.dsf (gids.getD i 0)) (coordinateAd y) (pressureAd p) theta bs
      fun _ _ => Num.const 0
    let Q ← flows C B.fluid (coordinateAd y) (pressureAd p) bs fun _ => Num.const 0
    some (fun k => F (k / 3) ⟨k % 3, Nat.mod_lt _ (by omega)⟩, Q)
  | _ => none

/-! ### The tangent -/

/-- The fields over all points, by global id: coordinates, fluid pressure, volume. -/
structure State where
  y : Nat → ℝ
  p : Nat → ℝ
  vol : Nat → ℝ

/-- The entries of one column for the unknowns of one point.
Models src/materials/Peridigm_MultiphysicsElasticMaterial.cpp:485-493 (without the tests). -/
def writePack (f : (Nat → Num) × (Nat → Num)) (vol : Nat → ℝ) (row col : Nat) (S : Scratch) : Outcome Scratch := do
  let S1 ← (List.range 3).foldlM (fun S sub => S.write (4 * row + sub) col ((f.1 (3 * row + sub)).dx col * vol row)) S
  S1.write (4 * row + 3) col ((f.2 row).dx col * vol row)

/-- The derivatives are written to the scratch matrix, times the volume.
Models src/materials/Peridigm_MultiphysicsElasticMaterial.cpp:480-497. -/
def writeAll (n : Nat) (f : (Nat → Num) × (Nat → Num)) (vol : Nat → ℝ) (S : Scratch) : Outcome Scratch :=
  (List.range n).foldlM (fun S row =>
    (List.range n).foldlM (fun S col =>
      (List.range 4).foldlM (fun S sub => writePack f vol row (4 * col + sub) S) S) S) S

/-- The local matrix of one neighborhood, and the scratch matrix left behind.  A number that is not finite ends the program.
Models src/materials/Peridigm_MultiphysicsElasticMaterial.cpp:370-497. -/
def adLocal (A : AdRates) (X : State) (gids : List Nat) (S : Scratch) : Outcome (Scratch × (Nat → Nat → ℝ)) := do
  let _ ← bondMap gids
  match A gids (gather 3 gids X.y) (gather 1 gids X.p) with
  | none => .fail .terminate
  | some f => do
    let S1 ← writeAll gids.length f (gather 1 gids X.vol) (S.fit (4 * gids.length))
    let L ← entries S1 (4 * gids.length)
    .ok (S1, L)

/-- One pass of the loop over the points; the numbers of the unknowns are `globalIndices`.
Models src/materials/Peridigm_MultiphysicsElasticMaterial.cpp:370-506. -/
def adPoint (kind : Kind) (A : AdRates) (X : State) (rows : Nat → Prop) (s : Scratch × Sparse) (gids : List Nat) :
    Outcome (Scratch × Sparse) := do
  let SL ← adLocal A X gids s.1
  let M ← addLocal kind rows (dofIds 4 gids) SL.2 s.2
  .ok (SL.1, M)

/-- `computeAutomaticDifferentiationJacobian` on one processor.
Models src/materials/Peridigm_MultiphysicsElasticMaterial.cpp:353-508. -/
def adOne (kind : Kind) (A : AdRates) (X : State) (S : Scratch) (pr : Proc) (M : Sparse) : Outcome Sparse := do
  let hs ← pr.hoods
  let s ← hs.foldlM (adPoint kind A X (pr.rows 4)) (S, M)
  .ok s.2

/-- The tangent from all processors.
Models src/core/Peridigm_ModelEvaluator.cpp:133-160 and src/core/Peridigm.cpp:4322-4326. -/
def adTangent (kind : Kind) (A : AdRates) (X : State) (S : Scratch) : List Proc → Sparse → Outcome Sparse
  | [], M => .ok M
  | pr :: prs, M => do
    let M1 ← adOne kind A X S pr M
    adTangent kind A X S prs M1

/-- The constructor of the material and `computeJacobian`; `ad` is the parameter "Apply Automatic Differentiation Jacobian",
true if it is not given.
Models src/materials/Peridigm_MultiphysicsElasticMaterial.cpp:63, 98-99, 110 and 330-350. -/
def coupledTangent (ad : Option Bool) (kind : Kind) (B : Body) (X : State) (S : Scratch) (prs : List Proc) (M : Sparse) :
    Outcome Sparse :=
  if ad.getD true then adTangent kind (coupledAd B) X S prs M else .fail .runtimeError

end Verif.Porous
