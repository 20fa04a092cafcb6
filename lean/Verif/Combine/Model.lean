import Verif.Field.Model

/-!
# Which components can be used together

Every component of an analysis -- the program itself, contact models, materials, damage models and compute classes --
asks the one field registry for its fields when it is constructed.  The registry ends the program if a label was
registered before with another type.  This file lists what every component asks for, in the order of the code.

Not modelled: builds with the partial volume library (without it `Compute Element-Horizon Intersections` and
`Use Partial Volume` end the program, src/core/Peridigm.cpp:200-202), the compute classes whose labels are given by the
user (`Compute_Block_Data`, `Compute_Node_Set_Data`, `Compute_Nearest_Point_Data`) and the data loader.
-/

namespace Verif.Combine

open Verif.Field

/-- What a constructor does with the registry: register a field or look up the label of one.
Models the two overloads src/core/Peridigm_Field.hpp:155-162. -/
inductive Action where
  | register (r : Request)
  | look (label : String)
  deriving DecidableEq, Repr

/-- One call of a constructor.
Models src/core/Peridigm_Field.cpp:94-159. -/
def act (fm : FieldManager) : Action → Outcome FieldManager
  | .register r => do
    let x ← getFieldId fm r
    .ok x.2
  | .look label => do
    let _ ← getFieldIdByLabel fm label
    .ok fm

/-- The calls one after the other on the one registry.
Models src/core/Peridigm_Field.cpp:89-92. -/
def perform (fm : FieldManager) : List Action → Outcome FieldManager
  | [] => .ok fm
  | a :: as => do
    let fm' ← act fm a
    perform fm' as

/-- The four arguments of a registration, as written in the code (src/core/Peridigm_Field.hpp:155-158). -/
def reg (relation : Relation) (length : Length) (temporal : Temporal) (label : String) : Action :=
  .register ⟨relation, length, temporal, label⟩

/-- The fields registered before those of an analysis with fluid pressure.
Models src/core/Peridigm.cpp:289-292. -/
def coreFirst : List Action :=
  [reg .element .scalar .constant "Element_Id",
   reg .element .scalar .constant "Block_Id",
   reg .element .scalar .constant "Horizon",
   reg .element .scalar .constant "Volume"]

/-- The fields of the fluid pressure, registered if `analysisHasMultiphysics`.
Models src/core/Peridigm.cpp:294-299. -/
def corePressure : List Action :=
  [reg .node .scalar .twoStep "Fluid_Pressure_Y",
   reg .node .scalar .twoStep "Fluid_Pressure_U",
   reg .node .scalar .twoStep "Fluid_Pressure_V",
   reg .node .scalar .twoStep "Flux_Density"]

/-- The remaining fields of the program itself.
Models src/core/Peridigm.cpp:301-316. -/
def coreRest : List Action :=
  [reg .node .vector .constant "Model_Coordinates",
   reg .node .vector .twoStep "Coordinates",
   reg .node .vector .twoStep "Displacement",
   reg .node .vector .twoStep "Velocity",
   reg .node .vector .twoStep "Acceleration",
   reg .node .scalar .twoStep "Temperature",
   reg .node .scalar .twoStep "Concentration",
   reg .node .scalar .twoStep "Temperature_Change",
   reg .node .scalar .twoStep "Flux_Divergence",
   reg .node .scalar .twoStep "Concentration_Flux_Divergence",
   reg .node .vector .twoStep "Force_Density",
   reg .node .vector .twoStep "Contact_Force_Density",
   reg .node .vector .twoStep "External_Force_Density",
   reg .element .scalar .constant "Proc_Num"]

/-- The fields looked up by the contact manager.
Models src/core/Peridigm_ContactManager.cpp:73-77. -/
def contactManager : List Action :=
  [.look "Block_Id",
   .look "Volume",
   .look "Coordinates",
   .look "Velocity",
   .look "Contact_Force_Density"]

/-- The short range force contact model.
Models src/contact/Peridigm_ShortRangeForceContactModel.cpp:79-82. -/
def shortRangeForce : List Action :=
  [.look "Volume",
   .look "Coordinates",
   .look "Velocity",
   reg .node .vector .twoStep "Contact_Force_Density"]

/-- The time dependent short range force contact model.
Models src/contact/Peridigm_UserDefinedTimeDependentShortRangeForceContactModel.cpp:93-96. -/
def timeDependentShortRangeForce : List Action :=
  [.look "Volume",
   .look "Coordinates",
   .look "Velocity",
   reg .node .vector .twoStep "Contact_Force_Density"]

/-- The fields of `ElasticMaterial`.
Models src/materials/Peridigm_ElasticMaterial.cpp:87-94. -/
def elastic : List Action :=
  [reg .element .scalar .constant "Volume",
   reg .element .scalar .twoStep "Damage",
   reg .element .scalar .constant "Weighted_Volume",
   reg .element .scalar .twoStep "Dilatation",
   reg .node .vector .constant "Model_Coordinates",
   reg .node .vector .twoStep "Coordinates",
   reg .node .vector .twoStep "Force_Density",
   reg .bond .scalar .twoStep "Bond_Damage"]

/-- Thermal strains of the elastic material.
Models src/materials/Peridigm_ElasticMaterial.cpp:96-97. -/
def elasticThermal : List Action :=
  [reg .node .scalar .twoStep "Temperature",
   reg .node .scalar .twoStep "Temperature_Change"]

/-- The partial stress of the elastic material.
Models src/materials/Peridigm_ElasticMaterial.cpp:100. -/
def elasticPartialStress : List Action :=
  [reg .element .fullTensor .twoStep "Partial_Stress"]

/-- The fields of `MultiphysicsElasticMaterial`.
Models src/materials/Peridigm_MultiphysicsElasticMaterial.cpp:113-123. -/
def multiphysicsElastic : List Action :=
  [reg .element .scalar .constant "Volume",
   reg .element .scalar .twoStep "Damage",
   reg .element .scalar .constant "Weighted_Volume",
   reg .element .scalar .twoStep "Dilatation",
   reg .node .scalar .twoStep "Flux_Density",
   reg .node .scalar .twoStep "Fluid_Pressure_Y",
   reg .node .vector .constant "Model_Coordinates",
   reg .node .vector .twoStep "Coordinates",
   reg .node .vector .twoStep "Force_Density",
   reg .bond .scalar .twoStep "Bond_Damage",
   reg .element .scalar .constant "Surface_Correction_Factor"]

/-- Thermal strains of the multiphysics elastic material.
Models src/materials/Peridigm_MultiphysicsElasticMaterial.cpp:125-126. -/
def multiphysicsElasticThermal : List Action :=
  [reg .node .scalar .twoStep "Temperature",
   reg .node .scalar .twoStep "Temperature_Change"]

/-- The fields of `ElasticPlasticMaterial`.
Models src/materials/Peridigm_ElasticPlasticMaterial.cpp:92-101. -/
def elasticPlastic : List Action :=
  [reg .element .scalar .constant "Volume",
   reg .element .scalar .twoStep "Damage",
   reg .element .scalar .constant "Weighted_Volume",
   reg .element .scalar .twoStep "Dilatation",
   reg .node .vector .constant "Model_Coordinates",
   reg .node .vector .twoStep "Coordinates",
   reg .node .vector .twoStep "Force_Density",
   reg .bond .scalar .twoStep "Bond_Damage",
   reg .bond .scalar .twoStep "Deviatoric_Plastic_Extension",
   reg .element .scalar .twoStep "Lambda"]

/-- The fields of `ElasticPlasticHardeningMaterial`.
Models src/materials/Peridigm_ElasticPlasticHardeningMaterial.cpp:89-99. -/
def elasticPlasticHardening : List Action :=
  [reg .element .scalar .constant "Volume",
   reg .element .scalar .twoStep "Damage",
   reg .element .scalar .constant "Weighted_Volume",
   reg .element .scalar .twoStep "Dilatation",
   reg .node .vector .constant "Model_Coordinates",
   reg .node .vector .twoStep "Coordinates",
   reg .node .vector .twoStep "Force_Density",
   reg .bond .scalar .twoStep "Bond_Damage",
   reg .bond .scalar .twoStep "Deviatoric_Plastic_Extension",
   reg .element .scalar .twoStep "Lambda",
   reg .element .scalar .constant "Surface_Correction_Factor"]

/-- The fields of `ViscoelasticMaterial`.
Models src/materials/Peridigm_ViscoelasticMaterial.cpp:76-84. -/
def viscoelastic : List Action :=
  [reg .element .scalar .constant "Volume",
   reg .element .scalar .twoStep "Damage",
   reg .element .scalar .constant "Weighted_Volume",
   reg .element .scalar .twoStep "Dilatation",
   reg .node .vector .constant "Model_Coordinates",
   reg .node .vector .twoStep "Coordinates",
   reg .node .vector .twoStep "Force_Density",
   reg .bond .scalar .twoStep "Bond_Damage",
   reg .bond .scalar .twoStep "Deviatoric_Back_Extension"]

/-- The fields of `CorrespondenceMaterial`.
Models src/materials/Peridigm_CorrespondenceMaterial.cpp:82-97. -/
def correspondenceBase : List Action :=
  [reg .element .scalar .constant "Horizon",
   reg .element .scalar .constant "Volume",
   reg .node .vector .constant "Model_Coordinates",
   reg .node .vector .twoStep "Coordinates",
   reg .node .vector .twoStep "Velocity",
   reg .node .vector .twoStep "Force_Density",
   reg .node .vector .twoStep "Hourglass_Force_Density",
   reg .bond .scalar .twoStep "Bond_Damage",
   reg .element .fullTensor .constant "Deformation_Gradient",
   reg .element .fullTensor .twoStep "Left_Stretch_Tensor",
   reg .element .fullTensor .twoStep "Rotation_Tensor",
   reg .element .fullTensor .constant "Shape_Tensor_Inverse",
   reg .element .fullTensor .twoStep "Unrotated_Cauchy_Stress",
   reg .element .fullTensor .twoStep "Cauchy_Stress",
   reg .element .fullTensor .constant "Unrotated_Rate_Of_Deformation",
   reg .element .fullTensor .twoStep "Partial_Stress"]

/-- The fields of `ElasticPlasticCorrespondenceMaterial`.
Models src/materials/Peridigm_ElasticPlasticCorrespondenceMaterial.cpp:66-69. -/
def elasticPlasticCorrespondence : List Action :=
  [reg .element .fullTensor .constant "Unrotated_Rate_Of_Deformation",
   reg .element .fullTensor .twoStep "Unrotated_Cauchy_Stress",
   reg .element .scalar .constant "Von_Mises_Stress",
   reg .element .scalar .twoStep "Equivalent_Plastic_Strain"]

/-- The fields of `ElasticCorrespondenceMaterial`.
Models src/materials/Peridigm_ElasticCorrespondenceMaterial.cpp:71-72. -/
def elasticCorrespondence : List Action :=
  [reg .element .fullTensor .constant "Unrotated_Rate_Of_Deformation",
   reg .element .fullTensor .twoStep "Unrotated_Cauchy_Stress"]

/-- Thermal strains of the elastic correspondence material.
Models src/materials/Peridigm_ElasticCorrespondenceMaterial.cpp:74-75. -/
def elasticCorrespondenceThermal : List Action :=
  [reg .node .scalar .twoStep "Temperature",
   reg .node .scalar .twoStep "Temperature_Change"]

/-- The fields of `ViscoPlasticNeedlemanCorrespondenceMaterial`.
Models src/materials/Peridigm_ViscoPlasticNeedlemanCorrespondenceMaterial.cpp:82-87. -/
def needlemanCorrespondence : List Action :=
  [reg .node .vector .constant "Model_Coordinates",
   reg .element .fullTensor .constant "Unrotated_Rate_Of_Deformation",
   reg .element .fullTensor .twoStep "Unrotated_Cauchy_Stress",
   reg .element .scalar .constant "Von_Mises_Stress",
   reg .element .scalar .twoStep "Equivalent_Plastic_Strain"]

/-- The fields of `IsotropicHardeningPlasticCorrespondenceMaterial`.
Models src/materials/Peridigm_IsotropicHardeningPlasticCorrespondenceMaterial.cpp:78-83. -/
def hardeningCorrespondence : List Action :=
  [reg .node .vector .constant "Model_Coordinates",
   reg .element .fullTensor .constant "Unrotated_Rate_Of_Deformation",
   reg .element .fullTensor .twoStep "Unrotated_Cauchy_Stress",
   reg .element .scalar .constant "Von_Mises_Stress",
   reg .element .scalar .twoStep "Equivalent_Plastic_Strain"]

/-- The fields of `HypoelasticCorrespondenceMaterial`.
Models src/materials/Peridigm_HypoelasticCorrespondenceMaterial.cpp:155-238. -/
def hypoelasticBase : List Action :=
  [reg .element .scalar .constant "Horizon",
   reg .element .scalar .constant "Volume",
   reg .node .vector .twoStep "Coordinates",
   reg .node .vector .twoStep "Velocity",
   reg .node .vector .twoStep "Force_Density",
   reg .bond .scalar .twoStep "Bond_Damage",
   reg .bond .scalar .constant "Gradient_Weight_X",
   reg .bond .scalar .constant "Gradient_Weight_Y",
   reg .bond .scalar .constant "Gradient_Weight_Z",
   reg .element .fullTensor .constant "Velocity_Gradient",
   reg .element .vector .constant "Velocity_Gradient_X",
   reg .element .vector .constant "Velocity_Gradient_Y",
   reg .element .vector .constant "Velocity_Gradient_Z",
   reg .element .fullTensor .twoStep "Deformation_Gradient",
   reg .element .fullTensor .constant "Green_Lagrange_Strain",
   reg .element .fullTensor .twoStep "Left_Stretch_Tensor",
   reg .element .fullTensor .twoStep "Rotation_Tensor",
   reg .element .fullTensor .twoStep "Unrotated_Cauchy_Stress",
   reg .element .fullTensor .twoStep "Cauchy_Stress",
   reg .element .fullTensor .constant "Unrotated_Rate_Of_Deformation",
   reg .element .scalar .twoStep "Jacobian_Determinant",
   reg .element .scalar .constant "Weighted_Volume",
   reg .element .scalar .constant "Undamaged_Weighted_Volume",
   reg .bond .scalar .twoStep "Left_Stretch_Tensor_XX",
   reg .bond .scalar .twoStep "Left_Stretch_Tensor_XY",
   reg .bond .scalar .twoStep "Left_Stretch_Tensor_XZ",
   reg .bond .scalar .twoStep "Left_Stretch_Tensor_YX",
   reg .bond .scalar .twoStep "Left_Stretch_Tensor_YY",
   reg .bond .scalar .twoStep "Left_Stretch_Tensor_YZ",
   reg .bond .scalar .twoStep "Left_Stretch_Tensor_ZX",
   reg .bond .scalar .twoStep "Left_Stretch_Tensor_ZY",
   reg .bond .scalar .twoStep "Left_Stretch_Tensor_ZZ",
   reg .bond .scalar .twoStep "Rotation_Tensor_XX",
   reg .bond .scalar .twoStep "Rotation_Tensor_XY",
   reg .bond .scalar .twoStep "Rotation_Tensor_XZ",
   reg .bond .scalar .twoStep "Rotation_Tensor_YX",
   reg .bond .scalar .twoStep "Rotation_Tensor_YY",
   reg .bond .scalar .twoStep "Rotation_Tensor_YZ",
   reg .bond .scalar .twoStep "Rotation_Tensor_ZX",
   reg .bond .scalar .twoStep "Rotation_Tensor_ZY",
   reg .bond .scalar .twoStep "Rotation_Tensor_ZZ",
   reg .bond .scalar .twoStep "Unrotated_Cauchy_Stress_XX",
   reg .bond .scalar .twoStep "Unrotated_Cauchy_Stress_XY",
   reg .bond .scalar .twoStep "Unrotated_Cauchy_Stress_XZ",
   reg .bond .scalar .twoStep "Unrotated_Cauchy_Stress_YX",
   reg .bond .scalar .twoStep "Unrotated_Cauchy_Stress_YY",
   reg .bond .scalar .twoStep "Unrotated_Cauchy_Stress_YZ",
   reg .bond .scalar .twoStep "Unrotated_Cauchy_Stress_ZX",
   reg .bond .scalar .twoStep "Unrotated_Cauchy_Stress_ZY",
   reg .bond .scalar .twoStep "Unrotated_Cauchy_Stress_ZZ",
   reg .bond .scalar .twoStep "Cauchy_Stress_XX",
   reg .bond .scalar .twoStep "Cauchy_Stress_XY",
   reg .bond .scalar .twoStep "Cauchy_Stress_XZ",
   reg .bond .scalar .twoStep "Cauchy_Stress_YX",
   reg .bond .scalar .twoStep "Cauchy_Stress_YY",
   reg .bond .scalar .twoStep "Cauchy_Stress_YZ",
   reg .bond .scalar .twoStep "Cauchy_Stress_ZX",
   reg .bond .scalar .twoStep "Cauchy_Stress_ZY",
   reg .bond .scalar .twoStep "Cauchy_Stress_ZZ",
   reg .bond .scalar .constant "Unrotated_Rate_Of_Deformation_XX",
   reg .bond .scalar .constant "Unrotated_Rate_Of_Deformation_XY",
   reg .bond .scalar .constant "Unrotated_Rate_Of_Deformation_XZ",
   reg .bond .scalar .constant "Unrotated_Rate_Of_Deformation_YX",
   reg .bond .scalar .constant "Unrotated_Rate_Of_Deformation_YY",
   reg .bond .scalar .constant "Unrotated_Rate_Of_Deformation_YZ",
   reg .bond .scalar .constant "Unrotated_Rate_Of_Deformation_ZX",
   reg .bond .scalar .constant "Unrotated_Rate_Of_Deformation_ZY",
   reg .bond .scalar .constant "Unrotated_Rate_Of_Deformation_ZZ",
   reg .bond .scalar .constant "Velocity_Gradient_XX",
   reg .bond .scalar .constant "Velocity_Gradient_XY",
   reg .bond .scalar .constant "Velocity_Gradient_XZ",
   reg .bond .scalar .constant "Velocity_Gradient_YX",
   reg .bond .scalar .constant "Velocity_Gradient_YY",
   reg .bond .scalar .constant "Velocity_Gradient_YZ",
   reg .bond .scalar .constant "Velocity_Gradient_ZX",
   reg .bond .scalar .constant "Velocity_Gradient_ZY",
   reg .bond .scalar .constant "Velocity_Gradient_ZZ",
   reg .element .fullTensor .constant "Nonhomogeneous_Integral",
   reg .element .scalar .twoStep "Flying_Point_Flag"]

/-- The fields of `ElasticHypoelasticCorrespondenceMaterial`.
Models src/materials/Peridigm_ElasticHypoelasticCorrespondenceMaterial.cpp:84-111. -/
def elasticHypoelastic : List Action :=
  [reg .element .fullTensor .constant "Unrotated_Rate_Of_Deformation",
   reg .element .fullTensor .twoStep "Unrotated_Cauchy_Stress",
   reg .element .scalar .constant "Von_Mises_Stress",
   reg .bond .scalar .constant "Unrotated_Rate_Of_Deformation_XX",
   reg .bond .scalar .constant "Unrotated_Rate_Of_Deformation_XY",
   reg .bond .scalar .constant "Unrotated_Rate_Of_Deformation_XZ",
   reg .bond .scalar .constant "Unrotated_Rate_Of_Deformation_YX",
   reg .bond .scalar .constant "Unrotated_Rate_Of_Deformation_YY",
   reg .bond .scalar .constant "Unrotated_Rate_Of_Deformation_YZ",
   reg .bond .scalar .constant "Unrotated_Rate_Of_Deformation_ZX",
   reg .bond .scalar .constant "Unrotated_Rate_Of_Deformation_ZY",
   reg .bond .scalar .constant "Unrotated_Rate_Of_Deformation_ZZ",
   reg .bond .scalar .twoStep "Unrotated_Cauchy_Stress_XX",
   reg .bond .scalar .twoStep "Unrotated_Cauchy_Stress_XY",
   reg .bond .scalar .twoStep "Unrotated_Cauchy_Stress_XZ",
   reg .bond .scalar .twoStep "Unrotated_Cauchy_Stress_YX",
   reg .bond .scalar .twoStep "Unrotated_Cauchy_Stress_YY",
   reg .bond .scalar .twoStep "Unrotated_Cauchy_Stress_YZ",
   reg .bond .scalar .twoStep "Unrotated_Cauchy_Stress_ZX",
   reg .bond .scalar .twoStep "Unrotated_Cauchy_Stress_ZY",
   reg .bond .scalar .twoStep "Unrotated_Cauchy_Stress_ZZ",
   reg .bond .scalar .constant "Bond_Von_Mises_Stress",
   reg .element .scalar .twoStep "Flying_Point_Flag"]

/-- The fields of `ElasticPlasticHypoelasticCorrespondenceMaterial`.
Models src/materials/Peridigm_ElasticPlasticHypoelasticCorrespondenceMaterial.cpp:91-125. -/
def elasticPlasticHypoelastic : List Action :=
  [reg .element .fullTensor .constant "Unrotated_Rate_Of_Deformation",
   reg .element .fullTensor .twoStep "Unrotated_Cauchy_Stress",
   reg .element .scalar .constant "Von_Mises_Stress",
   reg .element .scalar .twoStep "Equivalent_Plastic_Strain",
   reg .element .scalar .constant "Stress_Triaxiality",
   reg .element .scalar .twoStep "Flying_Point_Flag",
   reg .bond .scalar .constant "Unrotated_Rate_Of_Deformation_XX",
   reg .bond .scalar .constant "Unrotated_Rate_Of_Deformation_XY",
   reg .bond .scalar .constant "Unrotated_Rate_Of_Deformation_XZ",
   reg .bond .scalar .constant "Unrotated_Rate_Of_Deformation_YX",
   reg .bond .scalar .constant "Unrotated_Rate_Of_Deformation_YY",
   reg .bond .scalar .constant "Unrotated_Rate_Of_Deformation_YZ",
   reg .bond .scalar .constant "Unrotated_Rate_Of_Deformation_ZX",
   reg .bond .scalar .constant "Unrotated_Rate_Of_Deformation_ZY",
   reg .bond .scalar .constant "Unrotated_Rate_Of_Deformation_ZZ",
   reg .bond .scalar .twoStep "Unrotated_Cauchy_Stress_XX",
   reg .bond .scalar .twoStep "Unrotated_Cauchy_Stress_XY",
   reg .bond .scalar .twoStep "Unrotated_Cauchy_Stress_XZ",
   reg .bond .scalar .twoStep "Unrotated_Cauchy_Stress_YX",
   reg .bond .scalar .twoStep "Unrotated_Cauchy_Stress_YY",
   reg .bond .scalar .twoStep "Unrotated_Cauchy_Stress_YZ",
   reg .bond .scalar .twoStep "Unrotated_Cauchy_Stress_ZX",
   reg .bond .scalar .twoStep "Unrotated_Cauchy_Stress_ZY",
   reg .bond .scalar .twoStep "Unrotated_Cauchy_Stress_ZZ",
   reg .bond .scalar .constant "Bond_Von_Mises_Stress",
   reg .bond .scalar .twoStep "Bond_Equivalent_Plastic_Strain",
   reg .bond .scalar .constant "Bond_Stress_Triaxiality"]

/-- The fields of `IsotropicHardeningPlasticHypoelasticCorrespondenceMaterial`.
Models src/materials/Peridigm_IsotropicHardeningPlasticHypoelasticCorrespondenceMaterial.cpp:94-128. -/
def hardeningHypoelastic : List Action :=
  [reg .element .fullTensor .constant "Unrotated_Rate_Of_Deformation",
   reg .element .fullTensor .twoStep "Unrotated_Cauchy_Stress",
   reg .element .scalar .constant "Von_Mises_Stress",
   reg .element .scalar .twoStep "Equivalent_Plastic_Strain",
   reg .element .scalar .constant "Stress_Triaxiality",
   reg .element .scalar .twoStep "Flying_Point_Flag",
   reg .bond .scalar .constant "Unrotated_Rate_Of_Deformation_XX",
   reg .bond .scalar .constant "Unrotated_Rate_Of_Deformation_XY",
   reg .bond .scalar .constant "Unrotated_Rate_Of_Deformation_XZ",
   reg .bond .scalar .constant "Unrotated_Rate_Of_Deformation_YX",
   reg .bond .scalar .constant "Unrotated_Rate_Of_Deformation_YY",
   reg .bond .scalar .constant "Unrotated_Rate_Of_Deformation_YZ",
   reg .bond .scalar .constant "Unrotated_Rate_Of_Deformation_ZX",
   reg .bond .scalar .constant "Unrotated_Rate_Of_Deformation_ZY",
   reg .bond .scalar .constant "Unrotated_Rate_Of_Deformation_ZZ",
   reg .bond .scalar .twoStep "Unrotated_Cauchy_Stress_XX",
   reg .bond .scalar .twoStep "Unrotated_Cauchy_Stress_XY",
   reg .bond .scalar .twoStep "Unrotated_Cauchy_Stress_XZ",
   reg .bond .scalar .twoStep "Unrotated_Cauchy_Stress_YX",
   reg .bond .scalar .twoStep "Unrotated_Cauchy_Stress_YY",
   reg .bond .scalar .twoStep "Unrotated_Cauchy_Stress_YZ",
   reg .bond .scalar .twoStep "Unrotated_Cauchy_Stress_ZX",
   reg .bond .scalar .twoStep "Unrotated_Cauchy_Stress_ZY",
   reg .bond .scalar .twoStep "Unrotated_Cauchy_Stress_ZZ",
   reg .bond .scalar .constant "Bond_Von_Mises_Stress",
   reg .bond .scalar .twoStep "Bond_Equivalent_Plastic_Strain",
   reg .bond .scalar .constant "Bond_Stress_Triaxiality"]

/-- The fields of `BondAssociatedCorrespondenceMaterial`.
Models src/materials/Peridigm_BondAssociatedCorrespondenceMaterial.cpp:164-260. -/
def associatedBase : List Action :=
  [reg .element .scalar .constant "Horizon",
   reg .element .scalar .constant "Volume",
   reg .node .vector .constant "Model_Coordinates",
   reg .node .vector .twoStep "Displacement",
   reg .node .vector .twoStep "Coordinates",
   reg .node .vector .twoStep "Velocity",
   reg .node .vector .twoStep "Force_Density",
   reg .element .scalar .twoStep "Damage",
   reg .bond .scalar .twoStep "Bond_Damage",
   reg .bond .scalar .constant "Influence_State",
   reg .bond .scalar .constant "Gradient_Weight_X",
   reg .bond .scalar .constant "Gradient_Weight_Y",
   reg .bond .scalar .constant "Gradient_Weight_Z",
   reg .element .scalar .constant "Gradient_Weight_Evaluation_Flag",
   reg .element .vector .constant "Deformation_Gradient_X",
   reg .element .vector .constant "Deformation_Gradient_Y",
   reg .element .vector .constant "Deformation_Gradient_Z",
   reg .element .vector .constant "Deformation_Gradient_Dot_X",
   reg .element .vector .constant "Deformation_Gradient_Dot_Y",
   reg .element .vector .constant "Deformation_Gradient_Dot_Z",
   reg .element .fullTensor .twoStep "Green_Lagrange_Strain",
   reg .element .fullTensor .twoStep "Left_Stretch_Tensor",
   reg .element .fullTensor .twoStep "Rotation_Tensor",
   reg .element .fullTensor .twoStep "Unrotated_Cauchy_Stress",
   reg .element .fullTensor .twoStep "Cauchy_Stress",
   reg .element .fullTensor .constant "Unrotated_Rate_Of_Deformation",
   reg .element .scalar .constant "Weighted_Volume",
   reg .bond .scalar .twoStep "Left_Stretch_Tensor_XX",
   reg .bond .scalar .twoStep "Left_Stretch_Tensor_XY",
   reg .bond .scalar .twoStep "Left_Stretch_Tensor_XZ",
   reg .bond .scalar .twoStep "Left_Stretch_Tensor_YX",
   reg .bond .scalar .twoStep "Left_Stretch_Tensor_YY",
   reg .bond .scalar .twoStep "Left_Stretch_Tensor_YZ",
   reg .bond .scalar .twoStep "Left_Stretch_Tensor_ZX",
   reg .bond .scalar .twoStep "Left_Stretch_Tensor_ZY",
   reg .bond .scalar .twoStep "Left_Stretch_Tensor_ZZ",
   reg .bond .scalar .twoStep "Rotation_Tensor_XX",
   reg .bond .scalar .twoStep "Rotation_Tensor_XY",
   reg .bond .scalar .twoStep "Rotation_Tensor_XZ",
   reg .bond .scalar .twoStep "Rotation_Tensor_YX",
   reg .bond .scalar .twoStep "Rotation_Tensor_YY",
   reg .bond .scalar .twoStep "Rotation_Tensor_YZ",
   reg .bond .scalar .twoStep "Rotation_Tensor_ZX",
   reg .bond .scalar .twoStep "Rotation_Tensor_ZY",
   reg .bond .scalar .twoStep "Rotation_Tensor_ZZ",
   reg .bond .scalar .twoStep "Unrotated_Cauchy_Stress_XX",
   reg .bond .scalar .twoStep "Unrotated_Cauchy_Stress_XY",
   reg .bond .scalar .twoStep "Unrotated_Cauchy_Stress_XZ",
   reg .bond .scalar .twoStep "Unrotated_Cauchy_Stress_YX",
   reg .bond .scalar .twoStep "Unrotated_Cauchy_Stress_YY",
   reg .bond .scalar .twoStep "Unrotated_Cauchy_Stress_YZ",
   reg .bond .scalar .twoStep "Unrotated_Cauchy_Stress_ZX",
   reg .bond .scalar .twoStep "Unrotated_Cauchy_Stress_ZY",
   reg .bond .scalar .twoStep "Unrotated_Cauchy_Stress_ZZ",
   reg .bond .scalar .twoStep "Cauchy_Stress_XX",
   reg .bond .scalar .twoStep "Cauchy_Stress_XY",
   reg .bond .scalar .twoStep "Cauchy_Stress_XZ",
   reg .bond .scalar .twoStep "Cauchy_Stress_YX",
   reg .bond .scalar .twoStep "Cauchy_Stress_YY",
   reg .bond .scalar .twoStep "Cauchy_Stress_YZ",
   reg .bond .scalar .twoStep "Cauchy_Stress_ZX",
   reg .bond .scalar .twoStep "Cauchy_Stress_ZY",
   reg .bond .scalar .twoStep "Cauchy_Stress_ZZ",
   reg .bond .scalar .constant "Unrotated_Rate_Of_Deformation_XX",
   reg .bond .scalar .constant "Unrotated_Rate_Of_Deformation_XY",
   reg .bond .scalar .constant "Unrotated_Rate_Of_Deformation_XZ",
   reg .bond .scalar .constant "Unrotated_Rate_Of_Deformation_YX",
   reg .bond .scalar .constant "Unrotated_Rate_Of_Deformation_YY",
   reg .bond .scalar .constant "Unrotated_Rate_Of_Deformation_YZ",
   reg .bond .scalar .constant "Unrotated_Rate_Of_Deformation_ZX",
   reg .bond .scalar .constant "Unrotated_Rate_Of_Deformation_ZY",
   reg .bond .scalar .constant "Unrotated_Rate_Of_Deformation_ZZ",
   reg .bond .scalar .constant "Piola_Stress_XX",
   reg .bond .scalar .constant "Piola_Stress_XY",
   reg .bond .scalar .constant "Piola_Stress_XZ",
   reg .bond .scalar .constant "Piola_Stress_YX",
   reg .bond .scalar .constant "Piola_Stress_YY",
   reg .bond .scalar .constant "Piola_Stress_YZ",
   reg .bond .scalar .constant "Piola_Stress_ZX",
   reg .bond .scalar .constant "Piola_Stress_ZY",
   reg .bond .scalar .constant "Piola_Stress_ZZ",
   reg .bond .scalar .constant "Deformation_Gradient_Inv_XX",
   reg .bond .scalar .constant "Deformation_Gradient_Inv_XY",
   reg .bond .scalar .constant "Deformation_Gradient_Inv_XZ",
   reg .bond .scalar .constant "Deformation_Gradient_Inv_YX",
   reg .bond .scalar .constant "Deformation_Gradient_Inv_YY",
   reg .bond .scalar .constant "Deformation_Gradient_Inv_YZ",
   reg .bond .scalar .constant "Deformation_Gradient_Inv_ZX",
   reg .bond .scalar .constant "Deformation_Gradient_Inv_ZY",
   reg .bond .scalar .constant "Deformation_Gradient_Inv_ZZ",
   reg .bond .scalar .constant "Jacobian_Determinant",
   reg .element .fullTensor .constant "Stress_Integral"]

/-- The fields of `ElasticBondAssociatedCorrespondenceMaterial`.
Models src/materials/Peridigm_ElasticBondAssociatedCorrespondenceMaterial.cpp:63-67. -/
def elasticAssociated : List Action :=
  [reg .element .scalar .constant "Von_Mises_Stress",
   reg .bond .scalar .constant "Bond_Von_Mises_Stress"]

/-- The fields of `ElasticPlasticBondAssociatedCorrespondenceMaterial`.
Models src/materials/Peridigm_ElasticPlasticBondAssociatedCorrespondenceMaterial.cpp:70-80. -/
def elasticPlasticAssociated : List Action :=
  [reg .element .scalar .constant "Von_Mises_Stress",
   reg .element .scalar .twoStep "Equivalent_Plastic_Strain",
   reg .element .scalar .constant "Stress_Triaxiality",
   reg .bond .scalar .constant "Bond_Von_Mises_Stress",
   reg .bond .scalar .twoStep "Bond_Equivalent_Plastic_Strain",
   reg .bond .scalar .constant "Bond_Stress_Triaxiality"]

/-- The fields of `IsotropicHardeningPlasticBondAssociatedCorrespondenceMaterial`.
Models src/materials/Peridigm_IsotropicHardeningPlasticBondAssociatedCorrespondenceMaterial.cpp:89-99. -/
def hardeningAssociated : List Action :=
  [reg .element .scalar .constant "Von_Mises_Stress",
   reg .element .scalar .twoStep "Equivalent_Plastic_Strain",
   reg .element .scalar .constant "Stress_Triaxiality",
   reg .bond .scalar .constant "Bond_Von_Mises_Stress",
   reg .bond .scalar .twoStep "Bond_Equivalent_Plastic_Strain",
   reg .bond .scalar .constant "Bond_Stress_Triaxiality"]

/-- The fields of `LCMMaterial`.
Models src/materials/Peridigm_LCMMaterial.cpp:100-105. -/
def lcm : List Action :=
  [reg .element .scalar .constant "Volume",
   reg .element .scalar .twoStep "Damage",
   reg .node .vector .constant "Model_Coordinates",
   reg .node .vector .twoStep "Coordinates",
   reg .node .vector .twoStep "Force_Density",
   reg .bond .scalar .twoStep "Bond_Damage"]

/-- The fields of `ElasticBondBasedMaterial`.
Models src/materials/Peridigm_ElasticBondBasedMaterial.cpp:83-88. -/
def elasticBondBased : List Action :=
  [reg .element .scalar .constant "Volume",
   reg .element .scalar .twoStep "Damage",
   reg .node .vector .constant "Model_Coordinates",
   reg .node .vector .twoStep "Coordinates",
   reg .node .vector .twoStep "Force_Density",
   reg .bond .scalar .twoStep "Bond_Damage"]

/-- The fields of `VectorPoissonMaterial`.
Models src/materials/Peridigm_VectorPoissonMaterial.cpp:64-67. -/
def vectorPoisson : List Action :=
  [reg .element .scalar .constant "Volume",
   reg .node .vector .constant "Model_Coordinates",
   reg .node .vector .twoStep "Coordinates",
   reg .node .vector .twoStep "Force_Density"]

/-- The fields of `DiffusionMaterial`.
Models src/materials/Peridigm_DiffusionMaterial.cpp:76-79. -/
def diffusion : List Action :=
  [reg .element .scalar .constant "Volume",
   reg .node .vector .constant "Model_Coordinates",
   reg .node .scalar .twoStep "Temperature",
   reg .node .scalar .twoStep "Flux_Divergence"]

/-- The improved quadrature of the diffusion material.
Models src/materials/Peridigm_DiffusionMaterial.cpp:87. -/
def diffusionQuadrature : List Action :=
  [reg .bond .scalar .constant "Quadrature_Weights"]

/-- The fields of `Pals_Model`.  The labels of the six pairs of Lagrange multipliers are written out; the code puts them together with a stream.
Models src/materials/Peridigm_Pals_Model.cpp:93-128. -/
def pals : List Action :=
  [reg .element .scalar .constant "Volume",
   reg .element .scalar .constant "Weighted_Volume",
   reg .element .scalar .constant "Normalized_Weighted_Volume",
   reg .element .scalar .twoStep "Dilatation",
   reg .element .scalar .twoStep "Pals_Pressure",
   reg .node .vector .constant "Model_Coordinates",
   reg .node .vector .twoStep "Coordinates",
   reg .node .vector .twoStep "Force_Density",
   reg .bond .scalar .twoStep "Bond_Damage",
   reg .element .scalar .constant "Dilatation_Normalization",
   reg .element .scalar .constant "Deviatoric_Normalization",
   reg .element .scalar .constant "Lagrange_Multiplier_Dilatation_1",
   reg .element .scalar .constant "Lagrange_Multiplier_Deviatoric_1",
   reg .element .scalar .constant "Lagrange_Multiplier_Dilatation_2",
   reg .element .scalar .constant "Lagrange_Multiplier_Deviatoric_2",
   reg .element .scalar .constant "Lagrange_Multiplier_Dilatation_3",
   reg .element .scalar .constant "Lagrange_Multiplier_Deviatoric_3",
   reg .element .scalar .constant "Lagrange_Multiplier_Dilatation_4",
   reg .element .scalar .constant "Lagrange_Multiplier_Deviatoric_4",
   reg .element .scalar .constant "Lagrange_Multiplier_Dilatation_5",
   reg .element .scalar .constant "Lagrange_Multiplier_Deviatoric_5",
   reg .element .scalar .constant "Lagrange_Multiplier_Dilatation_6",
   reg .element .scalar .constant "Lagrange_Multiplier_Deviatoric_6"]

/-- The fields of `LinearLPSPVMaterial`.
Models src/materials/Peridigm_LinearLPSPVMaterial.cpp:92-100. -/
def linearLps : List Action :=
  [reg .element .scalar .constant "Volume",
   reg .element .scalar .twoStep "Damage",
   reg .element .scalar .constant "Weighted_Volume",
   reg .element .scalar .twoStep "Dilatation",
   reg .node .vector .constant "Model_Coordinates",
   reg .node .vector .twoStep "Coordinates",
   reg .node .vector .twoStep "Force_Density",
   reg .bond .scalar .constant "Influence_Function",
   reg .bond .scalar .twoStep "Bond_Damage"]

/-- The improved quadrature of the linear material.
Models src/materials/Peridigm_LinearLPSPVMaterial.cpp:113. -/
def linearLpsQuadrature : List Action :=
  [reg .bond .scalar .constant "Quadrature_Weights"]

/-- The fields of `CriticalStretchDamageModel`.
Models src/damage/Peridigm_CriticalStretchDamageModel.cpp:64-67. -/
def criticalStretch : List Action :=
  [.look "Model_Coordinates",
   .look "Coordinates",
   reg .element .scalar .twoStep "Damage",
   reg .bond .scalar .twoStep "Bond_Damage"]

/-- Thermal strains in the critical stretch.
Models src/damage/Peridigm_CriticalStretchDamageModel.cpp:69. -/
def criticalStretchThermal : List Action :=
  [reg .node .scalar .twoStep "Temperature_Change"]

/-- The fields of `InterfaceAwareDamageModel`.
Models src/damage/Peridigm_InterfaceAwareDamageModel.cpp:64-70. -/
def interfaceAware : List Action :=
  [.look "Model_Coordinates",
   .look "Coordinates",
   reg .element .scalar .twoStep "Damage",
   reg .bond .scalar .twoStep "Bond_Damage",
   reg .element .scalar .constant "Critical_Stretch"]

/-- Thermal strains in the interface aware damage model.
Models src/damage/Peridigm_InterfaceAwareDamageModel.cpp:69. -/
def interfaceAwareThermal : List Action :=
  [reg .node .scalar .twoStep "Temperature_Change"]

/-- The fields of `UserDefinedTimeDependentCriticalStretchDamageModel`.
Models src/damage/Peridigm_UserDefinedTimeDependentCriticalStretchDamageModel.cpp:71-75. -/
def timeDependentStretch : List Action :=
  [.look "Model_Coordinates",
   .look "Coordinates",
   reg .element .scalar .twoStep "Damage",
   reg .bond .scalar .twoStep "Bond_Damage"]

/-- Thermal strains in the time dependent critical stretch.
Models src/damage/Peridigm_UserDefinedTimeDependentCriticalStretchDamageModel.cpp:77. -/
def timeDependentStretchThermal : List Action :=
  [reg .node .scalar .twoStep "Temperature_Change"]

/-- The fields of `InitialDamageModel`.
Models src/damage/Peridigm_InitialDamageModel.cpp:60-62. -/
def initialDamage : List Action :=
  [.look "Model_Coordinates",
   reg .element .scalar .twoStep "Damage",
   reg .bond .scalar .twoStep "Bond_Damage"]

/-- The fields of `JohnsonCookDamageModel`.
Models src/damage/Peridigm_JohnsonCookDamageModel.cpp:92-114. -/
def johnsonCook : List Action :=
  [reg .element .scalar .twoStep "Damage",
   reg .element .scalar .twoStep "Flying_Point_Flag",
   reg .bond .scalar .twoStep "Bond_Damage",
   reg .element .scalar .twoStep "Broken_Bond_Volume_Averaged",
   reg .element .scalar .constant "Horizon",
   reg .element .scalar .constant "Volume",
   reg .node .vector .twoStep "Coordinates",
   reg .element .scalar .twoStep "Jacobian_Determinant",
   reg .element .scalar .constant "Undamaged_Weighted_Volume",
   reg .bond .scalar .twoStep "Bond_Equivalent_Plastic_Strain",
   reg .bond .scalar .constant "Bond_Stress_Triaxiality",
   reg .bond .scalar .twoStep "Bond_Damage_Parameter"]

/-- The fields of `VonMisesStressDamageModel`.
Models src/damage/Peridigm_VonMisesStressDamageModel.cpp:86-94. -/
def vonMisesStress : List Action :=
  [reg .element .scalar .twoStep "Flying_Point_Flag",
   reg .bond .scalar .twoStep "Bond_Damage",
   reg .bond .scalar .constant "Bond_Von_Mises_Stress",
   reg .element .scalar .twoStep "Broken_Bond_Volume_Averaged",
   reg .element .scalar .constant "Horizon",
   reg .element .scalar .constant "Volume",
   reg .node .vector .twoStep "Coordinates",
   reg .element .scalar .twoStep "Jacobian_Determinant",
   reg .element .scalar .constant "Undamaged_Weighted_Volume"]

/-- The fields of `Compute_Acceleration`.
Models src/compute/Peridigm_Compute_Acceleration.cpp:60-61. -/
def computeAcceleration : List Action :=
  [.look "Force_Density",
   reg .node .vector .twoStep "Acceleration"]

/-- The fields of `Compute_Bond_Visualization`.
Models src/compute/Peridigm_Compute_Bond_Visualization.cpp:77-80. -/
def computeBondVisualization : List Action :=
  [.look "Model_Coordinates",
   reg .global .scalar .constant "Bond_Visualization"]

/-- The fields of `Compute_Angular_Momentum`.
Models src/compute/Peridigm_Compute_Angular_Momentum.cpp:61-65. -/
def computeAngularMomentum : List Action :=
  [.look "Volume",
   .look "Coordinates",
   .look "Velocity",
   reg .node .vector .constant "Angular_Momentum",
   reg .global .scalar .constant "Global_Angular_Momentum"]

/-- The fields of `Compute_Linear_Momentum`.
Models src/compute/Peridigm_Compute_Linear_Momentum.cpp:61-64. -/
def computeLinearMomentum : List Action :=
  [.look "Volume",
   .look "Velocity",
   reg .node .vector .constant "Linear_Momentum",
   reg .global .scalar .constant "Global_Linear_Momentum"]

/-- The fields of `Compute_Kinetic_Energy`.
Models src/compute/Peridigm_Compute_Kinetic_Energy.cpp:60-63. -/
def computeKineticEnergy : List Action :=
  [.look "Volume",
   .look "Velocity",
   reg .element .scalar .constant "Kinetic_Energy",
   reg .global .scalar .constant "Global_Kinetic_Energy"]

/-- The fields of `Compute_Contact_Force`.
Models src/compute/Peridigm_Compute_Contact_Force.cpp:60-62. -/
def computeContactForce : List Action :=
  [.look "Volume",
   reg .node .vector .twoStep "Contact_Force_Density",
   reg .node .vector .twoStep "Contact_Force"]

/-- The fields of `Compute_Force`.
Models src/compute/Peridigm_Compute_Force.cpp:60-62. -/
def computeForce : List Action :=
  [.look "Volume",
   .look "Force_Density",
   reg .node .vector .twoStep "Force"]

/-- The fields of `Compute_Radius`.
Models src/compute/Peridigm_Compute_Radius.cpp:60-61. -/
def computeRadius : List Action :=
  [.look "Volume",
   reg .element .scalar .constant "Radius"]

/-- The fields of `Compute_Number_Of_Neighbors`.
Models src/compute/Peridigm_Compute_Number_Of_Neighbors.cpp:59. -/
def computeNumberOfNeighbors : List Action :=
  [reg .element .scalar .constant "Number_Of_Neighbors"]

/-- The fields of `Compute_Neighborhood_Volume`.
Models src/compute/Peridigm_Compute_Neighborhood_Volume.cpp:59-60. -/
def computeNeighborhoodVolume : List Action :=
  [.look "Volume",
   reg .element .scalar .constant "Neighborhood_Volume"]

/-- The fields of `Compute_Deformation_Gradient`.
Models src/compute/Peridigm_Compute_Deformation_Gradient.cpp:64-69. -/
def computeDeformationGradient : List Action :=
  [reg .element .scalar .constant "Volume",
   reg .element .scalar .constant "Horizon",
   reg .node .vector .constant "Model_Coordinates",
   reg .node .vector .twoStep "Coordinates",
   reg .element .fullTensor .constant "Shape_Tensor_Inverse",
   reg .element .fullTensor .constant "Deformation_Gradient"]

/-- The fields of `Compute_Stored_Elastic_Energy_Density`.
Models src/compute/Peridigm_Compute_Stored_Elastic_Energy_Density.cpp:60. -/
def computeEnergyDensity : List Action :=
  [reg .element .scalar .constant "Stored_Elastic_Energy_Density"]

/-- The fields of `Compute_Stored_Elastic_Energy`.
Models src/compute/Peridigm_Compute_Stored_Elastic_Energy.cpp:60-62. -/
def computeEnergy : List Action :=
  [reg .element .scalar .constant "Stored_Elastic_Energy_Density",
   reg .element .scalar .constant "Stored_Elastic_Energy",
   reg .element .scalar .constant "Volume"]

/-- The fields of `Compute_Nonlinear_Solver_Iterations`.
Models src/compute/Peridigm_Compute_Nonlinear_Solver_Iterations.cpp:64. -/
def computeIterations : List Action :=
  [reg .global .scalar .constant "Nonlinear_Solver_Iterations"]

/-- The fields of `Compute_OBC_Functional`.
Models src/compute/Peridigm_Compute_OBC_Functional.cpp:59. -/
def computeObc : List Action :=
  [reg .element .vector .constant "OBC_Functional"]

/-- The fields of `Compute_JIntegral`.
Models src/compute/Peridigm_Compute_JIntegral.cpp:67-74. -/
def computeJIntegral : List Action :=
  [.look "Volume",
   .look "Model_Coordinates",
   .look "Coordinates",
   .look "Velocity",
   reg .element .fullTensor .twoStep "Velocity_Gradient",
   reg .element .scalar .constant "Stored_Elastic_Energy_Density",
   reg .element .scalar .constant "Stored_Elastic_Energy",
   reg .bond .scalar .twoStep "Bond_Damage"]

/-- The materials, one for every name of the factory, with the options that change their fields.
Models src/materials/Peridigm_MaterialFactory.cpp:87-128. -/
inductive Material where
  | elastic (thermal partialStress : Bool)
  | multiphysicsElastic (thermal : Bool)
  | elasticPlastic
  | elasticPlasticHardening
  | viscoelastic
  | elasticPlasticCorrespondence
  | elasticCorrespondence (thermal : Bool)
  | needlemanCorrespondence
  | hardeningCorrespondence
  | elasticHypoelastic
  | elasticPlasticHypoelastic
  | hardeningHypoelastic
  | elasticAssociated
  | elasticPlasticAssociated
  | hardeningAssociated
  | lcm
  | elasticBondBased
  | vectorPoisson
  | diffusion (quadrature : Bool)
  | pals
  | linearLps (quadrature : Bool)
  deriving DecidableEq, Repr

/-- The constructors of a material: that of the base class comes first.
Models the constructors cited at the lists. -/
def Material.actions : Material → List Action
  | .elastic thermal partialStress =>
    Combine.elastic ++ (if thermal then elasticThermal else []) ++ (if partialStress then elasticPartialStress else [])
  | .multiphysicsElastic thermal =>
    Combine.multiphysicsElastic ++ (if thermal then multiphysicsElasticThermal else [])
  | .elasticPlastic => Combine.elasticPlastic
  | .elasticPlasticHardening => Combine.elasticPlasticHardening
  | .viscoelastic => Combine.viscoelastic
  | .elasticPlasticCorrespondence => correspondenceBase ++ Combine.elasticPlasticCorrespondence
  | .elasticCorrespondence thermal =>
    correspondenceBase ++ Combine.elasticCorrespondence ++ (if thermal then elasticCorrespondenceThermal else [])
  | .needlemanCorrespondence => correspondenceBase ++ Combine.needlemanCorrespondence
  | .hardeningCorrespondence => correspondenceBase ++ Combine.hardeningCorrespondence
  | .elasticHypoelastic => hypoelasticBase ++ Combine.elasticHypoelastic
  | .elasticPlasticHypoelastic => hypoelasticBase ++ Combine.elasticPlasticHypoelastic
  | .hardeningHypoelastic => hypoelasticBase ++ Combine.hardeningHypoelastic
  | .elasticAssociated => associatedBase ++ Combine.elasticAssociated
  | .elasticPlasticAssociated => associatedBase ++ Combine.elasticPlasticAssociated
  | .hardeningAssociated => associatedBase ++ Combine.hardeningAssociated
  | .lcm => Combine.lcm
  | .elasticBondBased => Combine.elasticBondBased
  | .vectorPoisson => Combine.vectorPoisson
  | .diffusion quadrature => Combine.diffusion ++ (if quadrature then diffusionQuadrature else [])
  | .pals => Combine.pals
  | .linearLps quadrature => Combine.linearLps ++ (if quadrature then linearLpsQuadrature else [])

/-- The damage models.
Models src/damage/Peridigm_DamageModelFactory.cpp:66-77. -/
inductive Damage where
  | criticalStretch (thermal : Bool)
  | interfaceAware (thermal : Bool)
  | timeDependentStretch (thermal : Bool)
  | initialDamage
  | johnsonCook
  | vonMisesStress
  deriving DecidableEq, Repr

/-- The constructors of the damage models.  Those of the interface aware model register a field after the temperature;
the order within one constructor does not matter as all labels of one constructor are different.
Models the constructors cited at the lists. -/
def Damage.actions : Damage → List Action
  | .criticalStretch thermal => Combine.criticalStretch ++ (if thermal then criticalStretchThermal else [])
  | .interfaceAware thermal => Combine.interfaceAware ++ (if thermal then interfaceAwareThermal else [])
  | .timeDependentStretch thermal =>
    Combine.timeDependentStretch ++ (if thermal then timeDependentStretchThermal else [])
  | .initialDamage => Combine.initialDamage
  | .johnsonCook => Combine.johnsonCook
  | .vonMisesStress => Combine.vonMisesStress

/-- The contact models.
Models src/contact/Peridigm_ContactModelFactory.cpp:61-64. -/
inductive Contact where
  | shortRangeForce
  | timeDependentShortRangeForce
  deriving DecidableEq, Repr

/-- The constructors of the contact models. -/
def Contact.actions : Contact → List Action
  | .shortRangeForce => Combine.shortRangeForce
  | .timeDependentShortRangeForce => Combine.timeDependentShortRangeForce

/-- The compute classes whose fields are fixed; the global and local kinds of a class have the constructor of their base
class.
Models src/compute/compute_includes.hpp. -/
inductive Compute where
  | acceleration | bondVisualization | angularMomentum | linearMomentum | kineticEnergy | contactForce | force | radius
  | numberOfNeighbors | neighborhoodVolume | deformationGradient | energyDensity | energy | iterations | obc | jIntegral
  deriving DecidableEq, Repr

/-- The constructors of the compute classes. -/
def Compute.actions : Compute → List Action
  | .acceleration => computeAcceleration
  | .bondVisualization => computeBondVisualization
  | .angularMomentum => computeAngularMomentum
  | .linearMomentum => computeLinearMomentum
  | .kineticEnergy => computeKineticEnergy
  | .contactForce => computeContactForce
  | .force => computeForce
  | .radius => computeRadius
  | .numberOfNeighbors => computeNumberOfNeighbors
  | .neighborhoodVolume => computeNeighborhoodVolume
  | .deformationGradient => computeDeformationGradient
  | .energyDensity => computeEnergyDensity
  | .energy => computeEnergy
  | .iterations => computeIterations
  | .obc => computeObc
  | .jIntegral => computeJIntegral

/-- The components of an analysis: whether there is fluid pressure, the contact models if there is a contact section,
the material and the damage model of every block, the compute classes. -/
structure Analysis where
  multiphysics : Bool
  contact : Option (List Contact)
  blocks : List (Material × Option Damage)
  computes : List Compute
  deriving DecidableEq, Repr

/-- The calls of one block: its material, then its damage model.
Models src/core/Peridigm.cpp:421-444. -/
def blockActions (b : Material × Option Damage) : List Action :=
  b.1.actions ++ (match b.2 with | none => [] | some d => d.actions)

/-- The calls of the contact section: the manager, then the models.
Models src/core/Peridigm.cpp:319-360. -/
def contactActions : Option (List Contact) → List Action
  | none => []
  | some models => contactManager ++ models.flatMap Contact.actions

/-- All calls of the construction of an analysis in the order of the code.
Models src/core/Peridigm.cpp:288-456. -/
def Analysis.actions (a : Analysis) : List Action :=
  coreFirst ++ (if a.multiphysics then corePressure else []) ++ coreRest ++ contactActions a.contact
    ++ a.blocks.flatMap blockActions ++ a.computes.flatMap Compute.actions

/-- The construction of an analysis on the empty registry of a new process.
Models src/core/Peridigm.cpp:288-456. -/
def construct (a : Analysis) : Outcome FieldManager := perform FieldManager.empty a.actions

end Verif.Combine
