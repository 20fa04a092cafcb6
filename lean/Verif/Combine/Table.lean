import Verif.Combine.Lemmas

/-! The requests of all lists are in the table; a calculation over the finitely many lists of the model. -/

namespace Verif.Combine

open Verif.Field

/-- The types of the four labels. -/
def gradientConstant : Request := ⟨.element, .fullTensor, .constant, "Deformation_Gradient"⟩
def gradientTwoStep : Request := ⟨.element, .fullTensor, .twoStep, "Deformation_Gradient"⟩
def determinantElement : Request := ⟨.element, .scalar, .twoStep, "Jacobian_Determinant"⟩
def determinantBond : Request := ⟨.bond, .scalar, .constant, "Jacobian_Determinant"⟩
def strainConstant : Request := ⟨.element, .fullTensor, .constant, "Green_Lagrange_Strain"⟩
def strainTwoStep : Request := ⟨.element, .fullTensor, .twoStep, "Green_Lagrange_Strain"⟩
def velocityConstant : Request := ⟨.element, .fullTensor, .constant, "Velocity_Gradient"⟩
def velocityTwoStep : Request := ⟨.element, .fullTensor, .twoStep, "Velocity_Gradient"⟩

/-- What the hypoelastic materials ask for under the four labels. -/
def hypoSet : List Request := [gradientTwoStep, determinantElement, strainConstant, velocityConstant]

/-- The lists without one of the four labels. -/
def plainLists : List (List Action) :=
  [coreFirst, corePressure, coreRest, contactManager, shortRangeForce, timeDependentShortRangeForce, elastic,
   elasticThermal, elasticPartialStress, multiphysicsElastic, multiphysicsElasticThermal, elasticPlastic,
   elasticPlasticHardening, viscoelastic, elasticPlasticCorrespondence, elasticCorrespondence,
   elasticCorrespondenceThermal, needlemanCorrespondence, hardeningCorrespondence, elasticAssociated,
   elasticPlasticAssociated, hardeningAssociated, lcm, elasticBondBased, vectorPoisson, diffusion, diffusionQuadrature,
   pals, linearLps, linearLpsQuadrature, criticalStretch, criticalStretchThermal, interfaceAware, interfaceAwareThermal,
   timeDependentStretch, timeDependentStretchThermal, initialDamage, computeAcceleration, computeBondVisualization,
   computeAngularMomentum, computeLinearMomentum, computeKineticEnergy, computeContactForce, computeForce, computeRadius,
   computeNumberOfNeighbors, computeNeighborhoodVolume, computeEnergyDensity, computeEnergy, computeIterations,
   computeObc]

/-- The lists with some of the four labels, and the types they ask for. -/
def fourLists : List (List Action × List Request) :=
  [(hypoelasticBase, hypoSet), (elasticHypoelastic, hypoSet), (elasticPlasticHypoelastic, hypoSet),
   (hardeningHypoelastic, hypoSet), (associatedBase, [determinantBond, strainTwoStep]),
   (correspondenceBase, [gradientConstant]), (computeDeformationGradient, [gradientConstant]),
   (computeJIntegral, [velocityTwoStep]), (johnsonCook, [determinantElement]),
   (vonMisesStress, [determinantElement])]

theorem fits_all : ∀ p ∈ plainLists.map (fun l => (l, [])) ++ fourLists, ∀ r ∈ requests p.1, Fits p.2 r := by
  decide +kernel

theorem looks_all : ∀ p ∈ plainLists.map (fun l => (l, [])) ++ fourLists, LooksCore p.1 := by
  decide +kernel

end Verif.Combine
