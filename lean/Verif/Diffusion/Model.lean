import Verif.Mech.Model

/-!
# Model of the diffusion, fluid flow and Poisson kernels

Models `DiffusionMaterial::computeFluxDivergence` (/repo/src/materials/Peridigm_DiffusionMaterial.cpp),
`VectorPoissonMaterial::computeForce` (/repo/src/materials/Peridigm_VectorPoissonMaterial.cpp), and
`computeInternalFluidFlow` and `computeInternalForceLinearElasticCoupled`
(/repo/src/materials/nonlocal_diffusion.cxx) as called by `MultiphysicsElasticMaterial::computeForce`
(/repo/src/materials/Peridigm_MultiphysicsElasticMaterial.cpp).

Numbers are exact reals.  The diffusion and Poisson materials check every contribution with
`std::isfinite` and terminate; over exact numbers a contribution is not finite exactly if its kernel
divides by zero, and this is `fail terminate`.  The fluid kernels do not check, and a division by zero
is `ub`, as in `Verif.Mech`.
-/

noncomputable section

namespace Verif.Diffusion

open Verif Verif.Neigh Verif.Mech
open scoped Classical

/-! ### Heat -/

/-- What the diffusion material reads: model coordinates, volumes, the stored quadrature weights of the
bonds if `Use Improved Quadrature` is set, horizon and coefficient
(src/materials/Peridigm_DiffusionMaterial.cpp:58-94).  Each block has its own material; as a block's
material changes only entries of the block's own points, the model treats all blocks at once, with
horizon and coefficient given by point. -/
structure Medium where
  x : Nat → V3
  v : Nat → ℝ
  weights : Option (Nat → ℝ)
  horizon : Nat → ℝ
  coefficient : Nat → ℝ

/-- `quadWeight`, src/materials/Peridigm_DiffusionMaterial.cpp:185-188. -/
def quadWeight (M : Medium) (b : Bond) : ℝ :=
  match M.weights with
  | none => M.v b.j
  | some w => w b.b

/-- `initialDistance`, src/materials/Peridigm_DiffusionMaterial.cpp:189-190. -/
def spacing (M : Medium) (b : Bond) : ℝ := len (M.x b.i - M.x b.j)

/-- The denominator of `kernel`, src/materials/Peridigm_DiffusionMaterial.cpp:191. -/
def kernelDenominator (M : Medium) (b : Bond) : ℝ :=
  Real.pi * M.horizon b.i * M.horizon b.i * M.horizon b.i * M.horizon b.i * spacing M b

/-- `nodeFluxDivergence` and the check that it is finite,
src/materials/Peridigm_DiffusionMaterial.cpp:191-194. -/
def fluxTerm (M : Medium) (T : Nat → ℝ) (b : Bond) : Outcome ℝ :=
  if kernelDenominator M b = 0 then .fail .terminate
  else .ok (M.coefficient b.i * (6 / kernelDenominator M b) * (T b.j - T b.i) * quadWeight M b)

/-- The loops over points and neighbors, src/materials/Peridigm_DiffusionMaterial.cpp:176-197. -/
def fluxLoop (M : Medium) (T : Nat → ℝ) : List Bond → (Nat → ℝ) → Outcome (Nat → ℝ)
  | [], D => .ok D
  | b :: bs, D =>
    fluxTerm M T b >>= fun t => fluxLoop M T bs (Function.update D b.i (D b.i + t))

/-- `DiffusionMaterial::computeFluxDivergence`,
src/materials/Peridigm_DiffusionMaterial.cpp:145-198, with temperature `T`. -/
def fluxDivergence (M : Medium) (T : Nat → ℝ) (n : Nat) (l : List Nat) : Outcome (Nat → ℝ) :=
  visitedBonds n l >>= fun bs => fluxLoop M T bs fun _ => 0

/-! ### Vector Poisson -/

/-- The displacement difference times the kernel, with the check that the forces are finite,
src/materials/Peridigm_VectorPoissonMaterial.cpp:125-142. -/
def poissonBond (C : Config) (b : Bond) : Outcome V3 :=
  let d := Real.pi * C.horizon * C.horizon * C.horizon * C.horizon * len (C.x b.i - C.x b.j)
  if d = 0 then .fail .terminate
  else .ok fun eqn => ((C.y b.j eqn - C.x b.j eqn) - (C.y b.i eqn - C.x b.i eqn)) * (3 / d)

/-- `VectorPoissonMaterial::computeForce`,
src/materials/Peridigm_VectorPoissonMaterial.cpp:88-149. -/
def poissonMaterial (C : Config) (n : Nat) (l : List Nat) : Outcome (Nat → V3) :=
  kernel (selfVol C) (nbrVol C) (poissonBond C) n l 0

/-! ### Fluid flow -/

/-- Constants of the fluid: the permeability (which `computeForce` passes for both permeability
arguments), density, base viscosity, the three numbers of the permeability curve, the coefficient of the
dependence of the viscosity on temperature
(src/materials/Peridigm_MultiphysicsElasticMaterial.cpp:73-85, 243-260). -/
structure Fluid where
  permeability : ℝ
  density : ℝ
  viscosity : ℝ
  inflection : ℝ
  alpha : ℝ
  maxPermeability : ℝ
  reynolds : ℝ

/-- `MU` for point `p`, src/materials/nonlocal_diffusion.cxx:121-124. -/
def viscosityAt (C : Config) (P : Fluid) (p : Nat) : ℝ :=
  match C.thermal with
  | none => P.viscosity
  | some (_, dT) => P.viscosity * Real.exp (P.reynolds * dT p)

/-- `nonlocalPermeability[3*col + row]`, src/materials/nonlocal_diffusion.cxx:113, 156-163. -/
def nonlocalPermeability (P : Fluid) (row col : Fin 3) : ℝ :=
  if row = col then P.permeability - 0.25 * (3 * P.permeability) else 0

/-- `effectivePermeability` in the direction of the bond, before damage,
src/materials/nonlocal_diffusion.cxx:167-172. -/
def bondPermeability (C : Config) (P : Fluid) (b : Bond) : ℝ :=
  ∑ row, ∑ col, C.yd b row * nonlocalPermeability P row col * C.yd b col

/-- `effectivePermeability` with damage, src/materials/nonlocal_diffusion.cxx:177. -/
def effectivePermeability (C : Config) (P : Fluid) (b : Bond) : ℝ :=
  bondPermeability C P b + (P.maxPermeability - bondPermeability C P b) *
    (1 / (1 + Real.exp (P.alpha * (C.damage b.b - P.inflection))))

/-- `q`, src/materials/nonlocal_diffusion.cxx:181. -/
def bondFlow (C : Config) (P : Fluid) (pressure : Nat → ℝ) (b : Bond) : Outcome ℝ :=
  if viscosityAt C P b.i = 0 then .ub
  else if Real.pi * C.horizon * C.horizon = 0 then .ub
  else if C.dY b = 0 then .ub
  else .ok (P.density / viscosityAt C P b.i * (4 / (Real.pi * C.horizon * C.horizon)) *
    (effectivePermeability C P b / C.dY b ^ 4) * (pressure b.j - pressure b.i))

/-- Adding the flow to both ends, src/materials/nonlocal_diffusion.cxx:183-184. -/
def flowStep (C : Config) (Q : Nat → ℝ) (b : Bond) (q : ℝ) : Nat → ℝ :=
  let Q1 := Function.update Q b.i (Q b.i + q * C.v b.j)
  Function.update Q1 b.j (Q1 b.j - q * C.v b.i)

/-- The loops over points and neighbors, src/materials/nonlocal_diffusion.cxx:115-186. -/
def flowLoop (C : Config) (P : Fluid) (pressure : Nat → ℝ) : List Bond → (Nat → ℝ) → Outcome (Nat → ℝ)
  | [], Q => .ok Q
  | b :: bs, Q => bondFlow C P pressure b >>= fun q => flowLoop C P pressure bs (flowStep C Q b q)

/-- `computeInternalFluidFlow`, src/materials/nonlocal_diffusion.cxx:55-188, called with zeroed flow
(src/materials/Peridigm_MultiphysicsElasticMaterial.cpp:204, 243-260). -/
def fluidFlow (C : Config) (P : Fluid) (pressure : Nat → ℝ) (n : Nat) (l : List Nat) :
    Outcome (Nat → ℝ) :=
  visitedBonds n l >>= fun bs => flowLoop C P pressure bs fun _ => 0

/-! ### Elastic force with pore pressure -/

/-- Pair force of `computeInternalForceLinearElasticCoupled`, src/materials/nonlocal_diffusion.cxx:473-501;
`dsf` is the surface correction factor. -/
def coupledBond (C : Config) (K mu : ℝ) (dsf pressure theta : Nat → ℝ) (b : Bond) : Outcome V3 :=
  if C.m b.i = 0 then .ub
  else
    let alpha := 15 * mu / C.m b.i * dsf b.i
    let c1 := C.om b * theta b.i * (3 * K / C.m b.i - alpha / 3) -
      3 * C.om b / C.m b.i * 1 * pressure b.i
    let t := (1 - C.damage b.b) *
      (c1 * C.zeta b + (1 - C.damage b.b) * C.om b * alpha * C.ext b)
    along C b t

/-- `MultiphysicsElasticMaterial::computeForce`,
src/materials/Peridigm_MultiphysicsElasticMaterial.cpp:195-262: dilatation, force and fluid flow. -/
def multiphysicsMaterial (C : Config) (K mu : ℝ) (P : Fluid) (dsf pressure : Nat → ℝ) (n : Nat)
    (l : List Nat) (th : Nat → ℝ) : Outcome ((Nat → ℝ) × (Nat → V3) × (Nat → ℝ)) :=
  dilatation C n l th >>= fun theta =>
  kernel (selfVol C) (nbrVol C) (coupledBond C K mu dsf pressure theta) n l 0 >>= fun F =>
  fluidFlow C P pressure n l >>= fun Q => .ok (theta, F, Q)

end Verif.Diffusion
