import Verif.Setup.Model
import Verif.Common.Sort

/-!
# Model of the choice of compute classes

Models `Peridigm::instantiateComputeManager` and the constructor and `FieldIds` of `ComputeManager`.  Parameter lists are given
as lists of entries in the order of iteration.
-/

noncomputable section

namespace Verif.Setup

open Verif
open scoped Classical

/-- An entry of the input as far as the collection of the output variables distinguishes it: a plain value, a list without
"Output Variables", a list in which "Output Variables" is a plain value, or a list with output variables, of which only
the names matter. -/
inductive OutEntry where
  | value
  | noVariables
  | variablesValue
  | vars (names : List String)
  deriving DecidableEq, Repr

/-- The entries of one output list are added to those collected unless they are there.
Models src/core/Peridigm.cpp:1104-1109. -/
def addVariables (acc : List String) (names : List String) : List String :=
  names.foldl (fun a n => if n ∈ a then a else a ++ [n]) acc

/-- The union of the output variables of all entries whose name contains "Output".
Models src/core/Peridigm.cpp:1085-1112. -/
def collectOutput (entries : List (String × OutEntry)) : Outcome (List String) :=
  entries.foldlM (fun acc e =>
    if contains "Output" e.1 = true then
      match e.2 with
      | .value => .fail .runtimeError
      | .noVariables => .ok acc
      | .variablesValue => .fail .runtimeError
      | .vars names => .ok (addVariables acc names)
    else .ok acc) []

/-- An entry of "Compute Class Parameters": a plain value, a list without "Compute Class", or one with it. -/
inductive ClassEntry (P : Type) where
  | value
  | noClass
  | params (name : String) (p : P)

/-- `std::replace(name.begin(), name.end(), ' ', '_')`. -/
def underscored (name : String) : String := String.ofList (name.toList.map fun c => if c = ' ' then '_' else c)

/-- The names and parameters in "Compute Class Parameters"; entries of other forms are refused.
Models src/core/Peridigm_ComputeManager.cpp:69-83, 103-113. -/
def classParameters {P : Type} (entries : List (ClassEntry P)) : Outcome (List (String × P)) :=
  entries.foldlM (fun acc e =>
    match e with
    | .value => .fail .runtimeError
    | .noClass => .fail .runtimeError
    | .params name p => .ok (acc ++ [(underscored name, p)])) []

/-- The classes to build: first those for output variables that have no parameters, then those with parameters.
Models src/core/Peridigm_ComputeManager.cpp:85-113. -/
def toBuild {P : Type} (vars : List String) (params : List (String × P)) : List (String × Option P) :=
  ((vars.map underscored).filter fun n => n ∉ params.map Prod.fst).map (fun n => (n, none)) ++
    params.map fun x => (x.1, some x.2)

/-- The registered names with their classes, in the order of the included files.
Models src/compute/compute_includes.hpp:1-25 with the `ComputeClass` lines of the files named there. -/
def registry : List (String × String) :=
  [("Acceleration", "Compute_Acceleration"), ("Bond_Visualization", "Compute_Bond_Visualization"),
   ("Angular_Momentum", "Compute_Angular_Momentum"), ("Global_Angular_Momentum", "Compute_Global_Angular_Momentum"),
   ("Angular_Momentum", "Compute_Local_Angular_Momentum"), ("Linear_Momentum", "Compute_Linear_Momentum"),
   ("Global_Linear_Momentum", "Compute_Global_Linear_Momentum"), ("Linear_Momentum", "Compute_Local_Linear_Momentum"),
   ("Kinetic_Energy", "Compute_Kinetic_Energy"), ("Global_Kinetic_Energy", "Compute_Global_Kinetic_Energy"),
   ("Kinetic_Energy", "Compute_Local_Kinetic_Energy"), ("Contact_Force", "Compute_Contact_Force"),
   ("Force", "Compute_Force"), ("Radius", "Compute_Radius"), ("Number_Of_Neighbors", "Compute_Number_Of_Neighbors"),
   ("Neighborhood_Volume", "Compute_Neighborhood_Volume"), ("Nearest_Point_Data", "Compute_Nearest_Point_Data"),
   ("Block_Data", "Compute_Block_Data"), ("Node_Set_Data", "Compute_Node_Set_Data"),
   ("Deformation_Gradient", "Compute_Deformation_Gradient"),
   ("Stored_Elastic_Energy_Density", "Compute_Stored_Elastic_Energy_Density"),
   ("Stored_Elastic_Energy", "Compute_Stored_Elastic_Energy"),
   ("Nonlinear_Solver_Iterations", "Compute_Nonlinear_Solver_Iterations"), ("OBC_Functional", "Compute_OBC_Functional"),
   ("JIntegral", "Compute_JIntegral")]

/-- The classes whose constructors read their parameters without asking whether there are any.
Models src/compute/Peridigm_Compute_Block_Data.cpp:62-66, Peridigm_Compute_Node_Set_Data.cpp:63-65,
Peridigm_Compute_Nearest_Point_Data.cpp:60-64 and Peridigm_Compute_JIntegral.cpp:63-64. -/
def needsParams (cls : String) : Bool :=
  cls ∈ ["Compute_Block_Data", "Compute_Node_Set_Data", "Compute_Nearest_Point_Data", "Compute_JIntegral"]

/-- A compute object: its class and the parameters it was built with. -/
structure ComputeObject (P : Type) where
  cls : String
  params : Option P
  deriving DecidableEq

/-- `new Class(params, …)`: reading from a null pointer is undefined; with parameters the constructors may refuse,
`valid` tells for which parameters they do not. -/
def construct {P : Type} (valid : String → P → Bool) (cls : String) (params : Option P) : Outcome (ComputeObject P) :=
  match params with
  | none => if needsParams cls = true then .ub else .ok ⟨cls, none⟩
  | some p => if valid cls p = true then .ok ⟨cls, some p⟩ else .fail .runtimeError

/-- The objects for one name: one for every registered class with this name, none if there is none.
Models src/core/Peridigm_ComputeManager.cpp:117-128. -/
def buildNamed {P : Type} (valid : String → P → Bool) (acc : List (ComputeObject P)) (x : String × Option P) :
    Outcome (List (ComputeObject P)) :=
  (registry.filter fun r => r.1 = x.1).foldlM (fun a r => do
    let o ← construct valid r.2 x.2
    .ok (a ++ [o])) acc

/-- `instantiateComputeManager`: the compute objects for an input with the entries `entries` and the compute class
parameters `cps`.
Models src/core/Peridigm.cpp:1076-1129 and src/core/Peridigm_ComputeManager.cpp:58-130. -/
def computeManager {P : Type} (valid : String → P → Bool) (entries : List (String × OutEntry))
    (cps : List (ClassEntry P)) : Outcome (List (ComputeObject P)) := do
  let vars ← collectOutput entries
  let params ← classParameters cps
  (toBuild vars params).foldlM (buildNamed valid) []

/-- `ComputeManager::FieldIds`, where `ids` gives the fields of an object.
Models src/core/Peridigm_ComputeManager.cpp:136-153. -/
def computeFieldIds {P : Type} (ids : ComputeObject P → List Nat) (objects : List (ComputeObject P)) : List Nat :=
  sortUnique (objects.flatMap ids)

end Verif.Setup
