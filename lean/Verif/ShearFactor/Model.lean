import Verif.Diffusion.Model
import Verif.Energy.Model

/-!
# The surface correction factor (model)

Models `set_pure_shear`, the dilatation of one point, `compute_norm_2_deviatoric_extension` and
`computeShearCorrectionFactor` of src/materials/material_utilities.cxx, `initialize` of the
`MultiphysicsElasticMaterial` and of the `ElasticPlasticHardeningMaterial`, which call them, and the
stored energy of the former, which is scaled by the factor.

Arithmetic is exact; a division by zero is `.ub`.  `OMEGA` is the default argument in all calls, the
influence function that has been selected (`Config.omega`).  The damage, the temperature and the
current positions in the configuration are not used by the functions here except by the stored energy.
-/

noncomputable section

namespace Verif.ShearFactor

open Verif Verif.Neigh Verif.Mech
open scoped Classical

/-- `PURE_SHEAR`, src/materials/material_utilities.h:62 (listed in the order of use). -/
inductive Mode where
  | XY
  | ZX
  | YZ
  deriving DecidableEq

/-- What `set_pure_shear` writes for the neighbor at `XP`.
Models src/materials/material_utilities.cxx:111-143. -/
def shearedNeighbor (mode : Mode) (gamma : ℝ) (X XP : V3) : V3 :=
  let dx := XP 0 - X 0
  let dy := XP 1 - X 1
  let dz := XP 2 - X 2
  let zx := if mode = .ZX then gamma * dx else 0
  let xz := if mode = .ZX then gamma * dz else 0
  let xy := if mode = .XY then gamma * dy else 0
  let yx := if mode = .XY then gamma * dx else 0
  let yz := if mode = .YZ then gamma * dz else 0
  let zy := if mode = .YZ then gamma * dy else 0
  ![XP 0 + xy + xz, XP 1 + yz + yx, XP 2 + zx + zy]

/-- `set_pure_shear` for the point at `X` with the neighbors `ns`; `y` is `yOverlap`.
Models src/materials/material_utilities.cxx:95-147. -/
def setPureShear (x : Nat → V3) (X : V3) (mode : Mode) (gamma : ℝ) :
    List Nat → (Nat → V3) → (Nat → V3)
  | [], y => y
  | j :: ns, y =>
    setPureShear x X mode gamma ns (Function.update y j (shearedNeighbor mode gamma X (x j)))

/-- `computeDilatation` for one point.  There is no division if there are no neighbors.
Models src/materials/material_utilities.cxx:333-372. -/
def pointDilatation (C : Config) (m : ℝ) (y : Nat → V3) (p : Nat) (ns : List Nat) : Outcome ℝ :=
  if ns ≠ [] ∧ m = 0 then .ub
  else .ok (ns.foldl (fun theta j =>
    let d := len (C.x j - C.x p)
    let e := len (y j - y p) - d
    theta + 3 * C.omega d C.horizon * (1 - 0) * d * e * C.v j / m) 0)

/-- `compute_norm_2_deviatoric_extension`.
Models src/materials/material_utilities.cxx:375-444. -/
def deviatoricNorm2 (C : Config) (m : ℝ) (y : Nat → V3) (p : Nat) (ns : List Nat) : Outcome ℝ := do
  let theta ← pointDilatation C m y p ns
  .ok (ns.foldl (fun edSquared j =>
    let zeta := len (C.x j - C.x p)
    let dY := len (y j - y p)
    let ed := dY - zeta - theta * zeta / 3
    edSquared + ed * C.omega zeta C.horizon * ed * C.v j) 0)

/-- `gamma`, src/materials/material_utilities.cxx:458. -/
def gamma : ℝ := 1 / 1000000

/-- The lines for one mode: the point is put back, its neighbors are sheared, the norm is computed.
Models src/materials/material_utilities.cxx:473-476 (and 479-482, 485-488). -/
def probe (C : Config) (m : ℝ) (mode : Mode) (p : Nat) (ns : List Nat) (y : Nat → V3) :
    Outcome (ℝ × (Nat → V3)) := do
  let y' := setPureShear C.x (C.x p) mode gamma ns (Function.update y p (C.x p))
  let scf ← deviatoricNorm2 C m y' p ns
  .ok (scf, y')

/-- The body of the loop of `computeShearCorrectionFactor`: the factor and `yOverlap` afterwards.
Models src/materials/material_utilities.cxx:466-497. -/
def pointFactor (C : Config) (m : ℝ) (p : Nat) (ns : List Nat) (y : Nat → V3) :
    Outcome (ℝ × (Nat → V3)) := do
  let r1 ← probe C m .XY p ns y
  let max1 := r1.1
  let r2 ← probe C m .ZX p ns r1.2
  let max2 := if r2.1 > max1 then r2.1 else max1
  let r3 ← probe C m .YZ p ns r2.2
  let max3 := if r3.1 > max2 then r3.1 else max2
  if max3 = 0 then .ub
  else .ok (4 * gamma * gamma * m / max3 / 15, Function.update r3.2 p (C.x p))

/-- `computeShearCorrectionFactor`; `pos` is `neighPtr`, `p` the next point, `y` is `yOverlap` and `f` the
array of factors.
Models src/materials/material_utilities.cxx:447-500. -/
def factorLoop (C : Config) (m : Nat → ℝ) (l : List Nat) : Nat → Nat → Nat → (Nat → V3) → (Nat → ℝ) →
    Outcome (Nat → ℝ)
  | 0, _, _, _, f => .ok f
  | n + 1, p, pos, y, f => do
    let k ← readAt l pos
    let ns ← neighborsAt l pos
    let r ← pointFactor C (m p) p ns y
    factorLoop C m l n (p + 1) (pos + (k + 1)) r.2 (Function.update f p r.1)

/-- The weighted volumes and the factors a material keeps. -/
structure Corrected where
  m : Nat → ℝ
  scf : Nat → ℝ

/-- `MultiphysicsElasticMaterial::initialize`.  `apply` is `m_applySurfaceCorrectionFactor`, `C.y` are the
coordinates at the step N+1, of which a copy is sheared; `m0` is the former content of the array of weighted
volumes.
Models src/materials/Peridigm_MultiphysicsElasticMaterial.cpp:163-194. -/
def multiphysicsInit (C : Config) (apply : Bool) (n : Nat) (l : List Nat) (m0 : Nat → ℝ) :
    Outcome Corrected := do
  let m ← weightedVolumeLoop C l n 0 0 m0
  let scf ← (if apply then factorLoop C m l n 0 0 C.y (fun _ => 1) else .ok fun _ => 1)
  .ok ⟨m, scf⟩

/-- The loop of line 141: the factors of the points from `p` on are replaced by their inverses.
Models src/materials/Peridigm_ElasticPlasticHardeningMaterial.cpp:141-142. -/
def invertLoop : Nat → Nat → (Nat → ℝ) → Outcome (Nat → ℝ)
  | 0, _, f => .ok f
  | n + 1, p, f => if f p = 0 then .ub else invertLoop n (p + 1) (Function.update f p (1 / f p))

/-- `ElasticPlasticHardeningMaterial::initialize`.
Models src/materials/Peridigm_ElasticPlasticHardeningMaterial.cpp:117-144. -/
def hardeningInit (C : Config) (apply : Bool) (n : Nat) (l : List Nat) (m0 : Nat → ℝ) :
    Outcome Corrected := do
  let m ← weightedVolumeLoop C l n 0 0 m0
  let scf ← (if apply then
      (do let f ← factorLoop C m l n 0 0 C.y (fun _ => 1); invertLoop n 0 f)
    else .ok fun _ => 1)
  .ok ⟨m, scf⟩

/-- The stored energy density at a point with the bonds `bs`.
Models src/materials/Peridigm_MultiphysicsElasticMaterial.cpp:305-308, 331. -/
def densityAt (C : Config) (K mu : ℝ) (scf theta : Nat → ℝ) (p : Nat) (bs : List Bond) : Outcome ℝ :=
  if C.m p = 0 then .ub
  else .ok (0.5 * K * theta p * theta p +
    0.5 * (15 * mu / C.m p * scf p) * Energy.energySum C theta bs)

/-- The loop over the points.
Models src/materials/Peridigm_MultiphysicsElasticMaterial.cpp:296-332. -/
def densityLoop (C : Config) (K mu : ℝ) (scf theta : Nat → ℝ) (bonds : List Bond) :
    List Nat → (Nat → ℝ) → Outcome (Nat → ℝ)
  | [], W => .ok W
  | p :: ps, W => do
      let w ← densityAt C K mu scf theta p (bonds.filter fun b => b.i = p)
      densityLoop C K mu scf theta bonds ps (Function.update W p w)

/-- `MultiphysicsElasticMaterial::computeStoredElasticEnergyDensity`; the lines 313-330 for one bond are those
of the elastic material (`Energy.energyTerm`).
Models src/materials/Peridigm_MultiphysicsElasticMaterial.cpp:265-333. -/
def energyDensity (C : Config) (K mu : ℝ) (scf theta : Nat → ℝ) (n : Nat) (l : List Nat)
    (W : Nat → ℝ) : Outcome (Nat → ℝ) := do
  let bonds ← visitedBonds n l
  densityLoop C K mu scf theta bonds (List.range n) W

end Verif.ShearFactor
