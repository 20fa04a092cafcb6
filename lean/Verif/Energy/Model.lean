import Verif.Mech.Model

/-!
# Stored elastic energy (model)

Models `ElasticMaterial::computeStoredElasticEnergyDensity`,
src/materials/Peridigm_ElasticMaterial.cpp:174-236, and `Compute_Stored_Elastic_Energy::compute`,
src/compute/Peridigm_Compute_Stored_Elastic_Energy.cpp:73-101.

Exact reals; a division by zero is `ub`.  `ownedIDs[i]` is taken to be `i`: the owned points come first
in the overlap maps (property C09).
-/

noncomputable section

namespace Verif.Energy

open Verif Verif.Neigh Verif.Mech
open scoped Classical

/-- `currentDistance` after the thermal correction.
Models src/materials/Peridigm_ElasticMaterial.cpp:223-227. -/
def currentDistance (C : Config) (b : Bond) : ℝ :=
  match C.thermal with
  | none => C.dY b
  | some (a, dT) => C.dY b - a * dT b.i * C.zeta b

/-- `deviatoricExtension`.
Models src/materials/Peridigm_ElasticMaterial.cpp:228. -/
def deviatoric (C : Config) (theta : Nat → ℝ) (b : Bond) : ℝ :=
  (currentDistance C b - C.zeta b) - theta b.i * C.zeta b / 3

/-- What a bond adds to `temp`.
Models src/materials/Peridigm_ElasticMaterial.cpp:230. -/
def energyTerm (C : Config) (theta : Nat → ℝ) (b : Bond) : ℝ :=
  (1 - C.damage b.b) * C.om b * deviatoric C theta b * deviatoric C theta b * C.v b.j

/-- `temp` after the loop over the bonds of a point.
Models src/materials/Peridigm_ElasticMaterial.cpp:212-231. -/
def energySum (C : Config) (theta : Nat → ℝ) (bs : List Bond) : ℝ :=
  bs.foldl (fun temp b => temp + energyTerm C theta b) 0

/-- The density at a point with the bonds `bs`.
Models src/materials/Peridigm_ElasticMaterial.cpp:209-210, 232. -/
def densityAt (C : Config) (K mu : ℝ) (theta : Nat → ℝ) (p : Nat) (bs : List Bond) : Outcome ℝ :=
  if C.m p = 0 then .ub
  else .ok (0.5 * K * theta p * theta p + 0.5 * (15 * mu / C.m p) * energySum C theta bs)

/-- The loop over the points.
Models src/materials/Peridigm_ElasticMaterial.cpp:199-233. -/
def densityLoop (C : Config) (K mu : ℝ) (theta : Nat → ℝ) (bonds : List Bond) :
    List Nat → (Nat → ℝ) → Outcome (Nat → ℝ)
  | [], W => .ok W
  | p :: ps, W => do
      let w ← densityAt C K mu theta p (bonds.filter fun b => b.i = p)
      densityLoop C K mu theta bonds ps (Function.update W p w)

/-- `ElasticMaterial::computeStoredElasticEnergyDensity`.  `theta` is the dilatation of the last force
evaluation, `W` the former content of the array.
Models src/materials/Peridigm_ElasticMaterial.cpp:174-236. -/
def energyDensity (C : Config) (K mu : ℝ) (theta : Nat → ℝ) (n : Nat) (l : List Nat)
    (W : Nat → ℝ) : Outcome (Nat → ℝ) := do
  let bonds ← visitedBonds n l
  densityLoop C K mu theta bonds (List.range n) W

/-- Density times volume for the owned points.
Models src/compute/Peridigm_Compute_Stored_Elastic_Energy.cpp:96-97. -/
def timesVolume (n : Nat) (W v U : Nat → ℝ) : Nat → ℝ := fun i => if i < n then W i * v i else U i

/-- `Compute_Stored_Elastic_Energy::compute` for one block.
Models src/compute/Peridigm_Compute_Stored_Elastic_Energy.cpp:79-98. -/
def storedEnergy (C : Config) (K mu : ℝ) (theta : Nat → ℝ) (n : Nat) (l : List Nat)
    (W U : Nat → ℝ) : Outcome (Nat → ℝ) := do
  let W' ← energyDensity C K mu theta n l W
  .ok (timesVolume n W' C.v U)

end Verif.Energy
