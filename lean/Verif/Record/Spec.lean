import Verif.Record.Model
import Verif.Setup.ComputeSpec

/-!
# Specification vocabulary for C248
-/

namespace Verif.Record

open Verif Verif.Field Verif.Setup

/-- The functions depend on nothing but the fields that they are said to depend on. -/
def Local {Q V : Type} (sem : Assign Q → (String → V) → V) : Prop :=
  ∀ a (s t : String → V), (∀ d ∈ a.deps, s d = t d) → sem a s = sem a t

/-- The quantity that an assignment computes is, in the record `s`, the function of the fields in the same record. -/
def Agrees {Q V : Type} (sem : Assign Q → (String → V) → V) (s : String → V) (a : Assign Q) : Prop :=
  s a.target = sem a s

/-- The names of the compute classes that give fields new values for output. -/
def computing : List String :=
  ["Acceleration", "Angular_Momentum", "Global_Angular_Momentum", "Linear_Momentum", "Global_Linear_Momentum",
   "Kinetic_Energy", "Global_Kinetic_Energy", "Contact_Force", "Force", "Deformation_Gradient",
   "Stored_Elastic_Energy_Density", "Stored_Elastic_Energy", "Nonlinear_Solver_Iterations", "JIntegral"]

/-- The names of the compute classes that reduce a field to a value. -/
def reductions : List String := ["Block_Data", "Node_Set_Data", "Nearest_Point_Data"]

/-- The fields of the compute classes other than the reductions. -/
def classFields : List String :=
  ["Acceleration", "Angular_Momentum", "Global_Angular_Momentum", "Linear_Momentum", "Global_Linear_Momentum",
   "Kinetic_Energy", "Global_Kinetic_Energy", "Contact_Force_Density", "Contact_Force", "Force", "Radius",
   "Number_Of_Neighbors", "Neighborhood_Volume", "Volume", "Horizon", "Model_Coordinates", "Coordinates",
   "Shape_Tensor_Inverse", "Deformation_Gradient", "Stored_Elastic_Energy_Density", "Stored_Elastic_Energy",
   "Nonlinear_Solver_Iterations", "OBC_Functional", "Bond_Visualization", "Velocity_Gradient", "Bond_Damage"]

/-- The labels of the reductions in "Compute Class Parameters". -/
def labels {Q : Type} (cps : List (ClassEntry (Params Q))) : List String :=
  cps.filterMap fun e =>
    match e with
    | .params n p => if underscored n ∈ reductions then some p.label else none
    | _ => none

/-- "Compute Class Parameters" have none of the classes that compute fields. -/
def OnlyReductions {Q : Type} (cps : List (ClassEntry (Params Q))) : Prop :=
  ∀ n p, ClassEntry.params n p ∈ cps → underscored n ∉ computing

/-- The labels of the reductions are new names: each is used once, and none is the name of another field. -/
def NewLabels {Q : Type} (more : List Request) (cps : List (ClassEntry (Params Q))) : Prop :=
  (labels cps).Nodup ∧
    ∀ l ∈ labels cps, l ∉ (analysisFields ++ more).map Request.label ∧ l ∉ classFields

/-- The energy of the materials depends on fields of the analysis, none of which is computed for output. -/
def MaterialFields (more : List Request) (mat : List String) : Prop :=
  ∀ d ∈ mat, d ∈ (analysisFields ++ more).map Request.label ∧
    d ∉ ["Acceleration", "Global_Angular_Momentum", "Angular_Momentum", "Linear_Momentum", "Global_Linear_Momentum",
      "Global_Kinetic_Energy", "Kinetic_Energy", "Contact_Force", "Force", "Shape_Tensor_Inverse",
      "Deformation_Gradient", "Stored_Elastic_Energy_Density", "Stored_Elastic_Energy", "Nonlinear_Solver_Iterations"]

/-- What a user who asks for an output variable is to find: for each name, the fields with the fields that they are
functions of. -/
def quantities {Q : Type} (mat : List String) : List (String × Assign Q) :=
  [("Acceleration", ⟨"Acceleration", ["Force_Density"], none⟩),
   ("Angular_Momentum", ⟨"Angular_Momentum", ["Volume", "Coordinates", "Velocity"], none⟩),
   ("Global_Angular_Momentum", ⟨"Global_Angular_Momentum", ["Volume", "Coordinates", "Velocity"], none⟩),
   ("Linear_Momentum", ⟨"Linear_Momentum", ["Volume", "Velocity"], none⟩),
   ("Global_Linear_Momentum", ⟨"Linear_Momentum", ["Volume", "Velocity"], none⟩),
   ("Global_Linear_Momentum", ⟨"Global_Linear_Momentum", ["Volume", "Velocity"], none⟩),
   ("Kinetic_Energy", ⟨"Kinetic_Energy", ["Volume", "Velocity"], none⟩),
   ("Global_Kinetic_Energy", ⟨"Global_Kinetic_Energy", ["Volume", "Velocity"], none⟩),
   ("Contact_Force", ⟨"Contact_Force", ["Volume", "Contact_Force_Density"], none⟩),
   ("Force", ⟨"Force", ["Volume", "Force_Density"], none⟩),
   ("Deformation_Gradient", ⟨"Shape_Tensor_Inverse", ["Volume", "Horizon", "Model_Coordinates"], none⟩),
   ("Deformation_Gradient",
     ⟨"Deformation_Gradient", ["Volume", "Horizon", "Model_Coordinates", "Coordinates"], none⟩),
   ("Stored_Elastic_Energy_Density", ⟨"Stored_Elastic_Energy_Density", mat, none⟩),
   ("Stored_Elastic_Energy", ⟨"Stored_Elastic_Energy_Density", mat, none⟩),
   ("Stored_Elastic_Energy", ⟨"Stored_Elastic_Energy", ["Stored_Elastic_Energy_Density", "Volume"], none⟩),
   ("Nonlinear_Solver_Iterations", ⟨"Nonlinear_Solver_Iterations", [], none⟩)]

/-- The classes of the reductions. -/
def reductionClasses : List (String × String) :=
  [("Block_Data", "Compute_Block_Data"), ("Node_Set_Data", "Compute_Node_Set_Data"),
   ("Nearest_Point_Data", "Compute_Nearest_Point_Data")]

/-- The value that a reduction is to show. -/
def reductionOf {Q : Type} (cls : String) (p : Params Q) : Assign Q := ⟨p.label, [p.var], some (cls, p)⟩

/-- A name for which there is a compute object: an output variable, or a compute class with parameters. -/
def Active {Q : Type} (entries : List (String × OutEntry)) (cps : List (ClassEntry (Params Q))) (key : String) : Prop :=
  (∃ v, Requested entries v ∧ NameFor v key) ∨ ∃ p, HasParams cps key p

end Verif.Record
