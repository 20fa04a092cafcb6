import Verif.Setup.ComputeModel
import Verif.Field.Model

/-!
# Model of the computation of output quantities

The constructors of the compute classes as far as they register fields, and `ComputeManager::compute`, which each output
manager calls before it writes a record.  The compute objects come from `Verif.Setup.computeManager`.

A value of a field is what all blocks and processors have of it (for a field with two states, its newest state).  A
`compute` is a list of assignments: each gives one field a value that depends on other fields.  What functions these are
is the subject of other models (`Verif.Outputs`, `Verif.Energy`, `Verif.Correspondence`); here they are arbitrary.

Simplifications: the fields are registered after all objects have been made, not one by one (a refusal is a refusal
either way).  The differences of maps that let `Compute_Force` and others return early do not occur.  A material that
has no stored elastic energy density throws (src/materials/Peridigm_Material.hpp:184-190); not modelled.
`Compute_JIntegral`, "currently not implemented", is given its fields but no assignments.
-/

namespace Verif.Record

open Verif Verif.Field Verif.Setup

/-- The fields registered before the compute objects are made, of any analysis.
Models src/core/Peridigm.cpp:289-292, 301-316. -/
def analysisFields : List Request :=
  [⟨.element, .scalar, .constant, "Element_Id"⟩, ⟨.element, .scalar, .constant, "Block_Id"⟩,
   ⟨.element, .scalar, .constant, "Horizon"⟩, ⟨.element, .scalar, .constant, "Volume"⟩,
   ⟨.node, .vector, .constant, "Model_Coordinates"⟩, ⟨.node, .vector, .twoStep, "Coordinates"⟩,
   ⟨.node, .vector, .twoStep, "Displacement"⟩, ⟨.node, .vector, .twoStep, "Velocity"⟩,
   ⟨.node, .vector, .twoStep, "Acceleration"⟩, ⟨.node, .scalar, .twoStep, "Temperature"⟩,
   ⟨.node, .scalar, .twoStep, "Concentration"⟩, ⟨.node, .scalar, .twoStep, "Temperature_Change"⟩,
   ⟨.node, .scalar, .twoStep, "Flux_Divergence"⟩, ⟨.node, .scalar, .twoStep, "Concentration_Flux_Divergence"⟩,
   ⟨.node, .vector, .twoStep, "Force_Density"⟩, ⟨.node, .vector, .twoStep, "Contact_Force_Density"⟩,
   ⟨.node, .vector, .twoStep, "External_Force_Density"⟩, ⟨.element, .scalar, .constant, "Proc_Num"⟩]

/-- What a constructor asks of the registry: the id of a field that exists, or of a field with a description. -/
inductive Demand where
  | label (l : String)
  | spec (r : Request)

/-- The two functions `getFieldId`.
Models src/core/Peridigm_Field.cpp:94-159. -/
def Demand.serve (fm : FieldManager) : Demand → Outcome FieldManager
  | .label l => do
      let _ ← getFieldIdByLabel fm l
      .ok fm
  | .spec r => do
      let x ← getFieldId fm r
      .ok x.2

/-- The demands of the constructors without parameters, in their order.
Models src/compute/Peridigm_Compute_Acceleration.cpp:59-61, Peridigm_Compute_Angular_Momentum.cpp:60-65,
Peridigm_Compute_Linear_Momentum.cpp:60-64, Peridigm_Compute_Kinetic_Energy.cpp:59-63,
Peridigm_Compute_Contact_Force.cpp:59-62, Peridigm_Compute_Force.cpp:59-62, Peridigm_Compute_Radius.cpp:59-61,
Peridigm_Compute_Number_Of_Neighbors.cpp:58-59, Peridigm_Compute_Neighborhood_Volume.cpp:58-60,
Peridigm_Compute_Deformation_Gradient.cpp:63-69, Peridigm_Compute_Stored_Elastic_Energy_Density.cpp:59-60,
Peridigm_Compute_Stored_Elastic_Energy.cpp:59-62, Peridigm_Compute_Nonlinear_Solver_Iterations.cpp:63-64,
Peridigm_Compute_OBC_Functional.cpp:58-59, Peridigm_Compute_Bond_Visualization.cpp:77-83 and
Peridigm_Compute_JIntegral.cpp:66-74; the classes for local and global quantities inherit their constructors
(Peridigm_Compute_Global_Kinetic_Energy.cpp:53-57 and five more). -/
def demandTable : List (String × List Demand) :=
  [("Compute_Acceleration", [.label "Force_Density", .spec ⟨.node, .vector, .twoStep, "Acceleration"⟩]),
   ("Compute_Angular_Momentum",
     [.label "Volume", .label "Coordinates", .label "Velocity",
      .spec ⟨.node, .vector, .constant, "Angular_Momentum"⟩,
      .spec ⟨.global, .scalar, .constant, "Global_Angular_Momentum"⟩]),
   ("Compute_Global_Angular_Momentum",
     [.label "Volume", .label "Coordinates", .label "Velocity",
      .spec ⟨.node, .vector, .constant, "Angular_Momentum"⟩,
      .spec ⟨.global, .scalar, .constant, "Global_Angular_Momentum"⟩]),
   ("Compute_Local_Angular_Momentum",
     [.label "Volume", .label "Coordinates", .label "Velocity",
      .spec ⟨.node, .vector, .constant, "Angular_Momentum"⟩,
      .spec ⟨.global, .scalar, .constant, "Global_Angular_Momentum"⟩]),
   ("Compute_Linear_Momentum",
     [.label "Volume", .label "Velocity", .spec ⟨.node, .vector, .constant, "Linear_Momentum"⟩,
      .spec ⟨.global, .scalar, .constant, "Global_Linear_Momentum"⟩]),
   ("Compute_Global_Linear_Momentum",
     [.label "Volume", .label "Velocity", .spec ⟨.node, .vector, .constant, "Linear_Momentum"⟩,
      .spec ⟨.global, .scalar, .constant, "Global_Linear_Momentum"⟩]),
   ("Compute_Local_Linear_Momentum",
     [.label "Volume", .label "Velocity", .spec ⟨.node, .vector, .constant, "Linear_Momentum"⟩,
      .spec ⟨.global, .scalar, .constant, "Global_Linear_Momentum"⟩]),
   ("Compute_Kinetic_Energy",
     [.label "Volume", .label "Velocity", .spec ⟨.element, .scalar, .constant, "Kinetic_Energy"⟩,
      .spec ⟨.global, .scalar, .constant, "Global_Kinetic_Energy"⟩]),
   ("Compute_Global_Kinetic_Energy",
     [.label "Volume", .label "Velocity", .spec ⟨.element, .scalar, .constant, "Kinetic_Energy"⟩,
      .spec ⟨.global, .scalar, .constant, "Global_Kinetic_Energy"⟩]),
   ("Compute_Local_Kinetic_Energy",
     [.label "Volume", .label "Velocity", .spec ⟨.element, .scalar, .constant, "Kinetic_Energy"⟩,
      .spec ⟨.global, .scalar, .constant, "Global_Kinetic_Energy"⟩]),
   ("Compute_Contact_Force",
     [.label "Volume", .spec ⟨.node, .vector, .twoStep, "Contact_Force_Density"⟩,
      .spec ⟨.node, .vector, .twoStep, "Contact_Force"⟩]),
   ("Compute_Force", [.label "Volume", .label "Force_Density", .spec ⟨.node, .vector, .twoStep, "Force"⟩]),
   ("Compute_Radius", [.label "Volume", .spec ⟨.element, .scalar, .constant, "Radius"⟩]),
   ("Compute_Number_Of_Neighbors", [.spec ⟨.element, .scalar, .constant, "Number_Of_Neighbors"⟩]),
   ("Compute_Neighborhood_Volume", [.label "Volume", .spec ⟨.element, .scalar, .constant, "Neighborhood_Volume"⟩]),
   ("Compute_Deformation_Gradient",
     [.spec ⟨.element, .scalar, .constant, "Volume"⟩, .spec ⟨.element, .scalar, .constant, "Horizon"⟩,
      .spec ⟨.node, .vector, .constant, "Model_Coordinates"⟩, .spec ⟨.node, .vector, .twoStep, "Coordinates"⟩,
      .spec ⟨.element, .fullTensor, .constant, "Shape_Tensor_Inverse"⟩,
      .spec ⟨.element, .fullTensor, .constant, "Deformation_Gradient"⟩]),
   ("Compute_Stored_Elastic_Energy_Density",
     [.spec ⟨.element, .scalar, .constant, "Stored_Elastic_Energy_Density"⟩]),
   ("Compute_Stored_Elastic_Energy",
     [.spec ⟨.element, .scalar, .constant, "Stored_Elastic_Energy_Density"⟩,
      .spec ⟨.element, .scalar, .constant, "Stored_Elastic_Energy"⟩,
      .spec ⟨.element, .scalar, .constant, "Volume"⟩]),
   ("Compute_Nonlinear_Solver_Iterations", [.spec ⟨.global, .scalar, .constant, "Nonlinear_Solver_Iterations"⟩]),
   ("Compute_OBC_Functional", [.spec ⟨.element, .vector, .constant, "OBC_Functional"⟩]),
   ("Compute_Bond_Visualization",
     [.label "Model_Coordinates", .spec ⟨.global, .scalar, .constant, "Bond_Visualization"⟩]),
   ("Compute_JIntegral",
     [.label "Volume", .label "Model_Coordinates", .label "Coordinates", .label "Velocity",
      .spec ⟨.element, .fullTensor, .twoStep, "Velocity_Gradient"⟩,
      .spec ⟨.element, .scalar, .constant, "Stored_Elastic_Energy_Density"⟩,
      .spec ⟨.element, .scalar, .constant, "Stored_Elastic_Energy"⟩,
      .spec ⟨.bond, .scalar, .twoStep, "Bond_Damage"⟩])]

/-- The demands of one class. -/
def classDemands (cls : String) : List Demand :=
  match demandTable.find? fun e => e.1 = cls with
  | some e => e.2
  | none => []

/-- The parameters of a compute class: "Variable" and "Output Label" if it has them, and the others. -/
structure Params (Q : Type) where
  var : String
  label : String
  rest : Q
  deriving DecidableEq

/-- The classes that reduce a field to one value under a label. -/
def reduces (cls : String) : Bool :=
  cls ∈ ["Compute_Block_Data", "Compute_Node_Set_Data", "Compute_Nearest_Point_Data"]

/-- The fields of a reduction: the variable must exist and be a scalar or a vector; the label becomes a global field of
the same length.
Models src/compute/Peridigm_Compute_Block_Data.cpp:82-98, Peridigm_Compute_Node_Set_Data.cpp:99-115 and
Peridigm_Compute_Nearest_Point_Data.cpp:70-90. -/
def registerReduction {Q : Type} (fm : FieldManager) (cls : String) (p : Params Q) : Outcome FieldManager := do
  let fm ← if cls = "Compute_Nearest_Point_Data" then
      [Demand.label "Element_Id", .label "Model_Coordinates"].foldlM Demand.serve fm
    else .ok fm
  let id ← getFieldIdByLabel fm p.var
  let s ← getFieldSpec fm id
  match s.length with
  | .scalar => Demand.serve fm (.spec ⟨.global, .scalar, .constant, p.label⟩)
  | .vector => Demand.serve fm (.spec ⟨.global, .vector, .constant, p.label⟩)
  | _ => .fail .runtimeError

/-- The fields registered by one constructor.
Models the constructors named at `classDemands` and `registerReduction`. -/
def register {Q : Type} (fm : FieldManager) (o : ComputeObject (Params Q)) : Outcome FieldManager :=
  if reduces o.cls = true then
    match o.params with
    | none => .ub
    | some p => registerReduction fm o.cls p
  else (classDemands o.cls).foldlM Demand.serve fm

/-- One assignment of a `compute`: the field that is written, the fields that its value depends on, and the class and
parameters of a reduction. -/
structure Assign (Q : Type) where
  target : String
  deps : List String
  reduction : Option (String × Params Q)
  deriving DecidableEq

/-- The assignments of the classes without parameters; `mat` are the fields that the stored elastic energy density of
the materials depends on.  The classes that fill their fields in `initialize` assign nothing here, and the base classes
of the local and global quantities do nothing.
Models src/compute/Peridigm_Compute_Acceleration.cpp:70-86, Peridigm_Compute_Angular_Momentum.cpp:77-164 with
Peridigm_Compute_Global_Angular_Momentum.cpp:61-66 and Peridigm_Compute_Local_Angular_Momentum.cpp:63-67,
Peridigm_Compute_Linear_Momentum.cpp:75-170 with Peridigm_Compute_Global_Linear_Momentum.cpp:63-68 and
Peridigm_Compute_Local_Linear_Momentum.cpp:63-68, Peridigm_Compute_Kinetic_Energy.cpp:74-157 with
Peridigm_Compute_Global_Kinetic_Energy.cpp:63-68 and Peridigm_Compute_Local_Kinetic_Energy.cpp:63-68,
Peridigm_Compute_Contact_Force.cpp:72-109, Peridigm_Compute_Force.cpp:72-108, Peridigm_Compute_Radius.cpp:88-90,
Peridigm_Compute_Number_Of_Neighbors.cpp:84-86, Peridigm_Compute_Neighborhood_Volume.cpp:111-113,
Peridigm_Compute_Deformation_Gradient.cpp:83-118, Peridigm_Compute_Stored_Elastic_Energy_Density.cpp:68-90,
Peridigm_Compute_Stored_Elastic_Energy.cpp:72-102, Peridigm_Compute_Nonlinear_Solver_Iterations.cpp:71-75,
Peridigm_Compute_OBC_Functional.cpp:72-80 and Peridigm_Compute_Bond_Visualization.cpp:151-153. -/
def assignTable {Q : Type} (mat : List String) : List (String × List (Assign Q)) :=
  [("Compute_Acceleration", [⟨"Acceleration", ["Force_Density"], none⟩]),
   ("Compute_Global_Angular_Momentum", [⟨"Global_Angular_Momentum", ["Volume", "Coordinates", "Velocity"], none⟩]),
   ("Compute_Local_Angular_Momentum", [⟨"Angular_Momentum", ["Volume", "Coordinates", "Velocity"], none⟩]),
   ("Compute_Global_Linear_Momentum",
     [⟨"Linear_Momentum", ["Volume", "Velocity"], none⟩,
      ⟨"Global_Linear_Momentum", ["Volume", "Velocity"], none⟩]),
   ("Compute_Local_Linear_Momentum", [⟨"Linear_Momentum", ["Volume", "Velocity"], none⟩]),
   ("Compute_Global_Kinetic_Energy", [⟨"Global_Kinetic_Energy", ["Volume", "Velocity"], none⟩]),
   ("Compute_Local_Kinetic_Energy", [⟨"Kinetic_Energy", ["Volume", "Velocity"], none⟩]),
   ("Compute_Contact_Force", [⟨"Contact_Force", ["Volume", "Contact_Force_Density"], none⟩]),
   ("Compute_Force", [⟨"Force", ["Volume", "Force_Density"], none⟩]),
   ("Compute_Deformation_Gradient",
     [⟨"Shape_Tensor_Inverse", ["Volume", "Horizon", "Model_Coordinates"], none⟩,
      ⟨"Deformation_Gradient", ["Volume", "Horizon", "Model_Coordinates", "Coordinates"], none⟩]),
   ("Compute_Stored_Elastic_Energy_Density", [⟨"Stored_Elastic_Energy_Density", mat, none⟩]),
   ("Compute_Stored_Elastic_Energy",
     [⟨"Stored_Elastic_Energy_Density", mat, none⟩,
      ⟨"Stored_Elastic_Energy", ["Stored_Elastic_Energy_Density", "Volume"], none⟩]),
   ("Compute_Nonlinear_Solver_Iterations", [⟨"Nonlinear_Solver_Iterations", [], none⟩])]

/-- The assignments of one class. -/
def classAssigns {Q : Type} (mat : List String) (cls : String) : List (Assign Q) :=
  match (assignTable mat).find? fun e => e.1 = cls with
  | some e => e.2
  | none => []

/-- The assignments of one object.
Models src/compute/Peridigm_Compute_Block_Data.cpp:121-216, Peridigm_Compute_Node_Set_Data.cpp:138-239,
Peridigm_Compute_Nearest_Point_Data.cpp:200-239 and the functions named at `classAssigns`. -/
def assigns {Q : Type} (mat : List String) (o : ComputeObject (Params Q)) : List (Assign Q) :=
  if reduces o.cls = true then
    match o.params with
    | none => []
    | some p => [⟨p.label, [p.var], some (o.cls, p)⟩]
  else classAssigns mat o.cls

/-- One assignment; `sem` are the functions. -/
def assign {Q V : Type} (sem : Assign Q → (String → V) → V) (s : String → V) (a : Assign Q) : String → V :=
  fun f => if f = a.target then sem a s else s f

/-- `ComputeManager::compute`: the objects one after the other.
Models src/core/Peridigm_ComputeManager.cpp:194-202. -/
def compute {Q V : Type} (sem : Assign Q → (String → V) → V) (mat : List String)
    (objects : List (ComputeObject (Params Q))) (s : String → V) : String → V :=
  (objects.flatMap (assigns mat)).foldl (assign sem) s

/-- The compute objects of an analysis and the registry after their construction; `more` are the fields that the other
parts of the analysis (contact, materials, damage models) register before.
Models src/core/Peridigm.cpp:289-316, 454 and 1076-1129 with src/core/Peridigm_ComputeManager.cpp:115-129. -/
def prepare {Q : Type} (valid : String → Params Q → Bool) (more : List Request) (entries : List (String × OutEntry))
    (cps : List (ClassEntry (Params Q))) : Outcome (List (ComputeObject (Params Q)) × FieldManager) := do
  let fm ← run FieldManager.empty (analysisFields ++ more)
  let objects ← computeManager valid entries cps
  let fm ← objects.foldlM register fm.2
  .ok (objects, fm)

/-- The output sections that write a record at some time: each calls `compute` first, and then writes the fields as they
are.
Models src/io/Peridigm_OutputManager_ExodusII.cpp:230-231 and src/io/Peridigm_OutputManagerContainer.hpp:75-80. -/
def records {Q V : Type} (sem : Assign Q → (String → V) → V) (mat : List String)
    (objects : List (ComputeObject (Params Q))) : Nat → (String → V) → List (String → V)
  | 0, _ => []
  | n + 1, s =>
      let t := compute sem mat objects s
      t :: records sem mat objects n t

end Verif.Record
