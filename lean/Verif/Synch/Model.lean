import Verif.Assembly.Model
import Verif.Field.Model
import Verif.Common.Outcome
import Verif.Common.Sort
import Mathlib.Algebra.Order.Monoid.Unbundled.WithTop
import Mathlib.Data.Real.Basic

/-!
# Data of the blocks between evaluations (model)

Models the traffic between the global vectors of `Peridigm` and the data managers of the blocks: `synchDataManagers`
and its place in the solvers, `computeInternalForce`, and the set-up and checks of `DataManagerSynchronizer`, on all
processors together.  Distributed vectors, `importData` and `exportData` are those of `Verif.Assembly`.

* Additions are exact; the value of an element is an element of a commutative additive monoid `V`.
* There is one analysis in the process: the static vector of `synchDataManagers` and the singleton
  `DataManagerSynchronizer` start empty.
-/

namespace Verif.Synch

open Verif Verif.Assembly

variable {V : Type}

/-! ## Blocks and global vectors -/

/-- A block: its data by label of the field and step.
Models src/core/Peridigm_BlockBase.hpp (`dataManager`) and `DataManager::getData`, the storage of which is modelled in
`Verif.Data`. -/
structure Block (V : Type) where
  field : String → Field.Step → BlockField V

/-- Storing the data of one field and step. -/
def Block.put (b : Block V) (name : String) (s : Field.Step) (f : BlockField V) : Block V :=
  ⟨fun n t => if n = name ∧ t = s then f else b.field n t⟩

/-- `importData` with combine mode `Insert`; a null vector changes nothing.
Models src/core/Peridigm_BlockBase.cpp:79-97. -/
def Block.importData (b : Block V) (src : Option (Assembly.Dist V)) (name : String) (s : Field.Step) : Block V :=
  match src with
  | none => b
  | some g => b.put name s (importInsert (b.field name s) g)

/-- `updateState`: the two steps change places; data without steps stay.
Models src/core/Peridigm_BlockBase.hpp (`updateState`), see `Verif.Data` for the data manager. -/
def Block.updateState (b : Block V) : Block V :=
  ⟨fun n s => match s with
    | .n => b.field n .np1
    | .np1 => b.field n .n
    | t => b.field n t⟩

/-- The vectors that are members of `Peridigm`, by name; `none` is a null pointer.  The vector `concentration` is never
allocated.
Models src/core/Peridigm.cpp:844-894. -/
abbrev Globals (V : Type) := String → Option (Assembly.Dist V)

/-! ## `synchDataManagers` -/

/-- The vectors copied to the blocks and the fields they go to.
Models src/core/Peridigm.cpp:4347-4378 with the labels of 289-316. -/
def table (multiphysics : Bool) : List (String × String) :=
  if multiphysics then
    [("u", "Displacement"), ("y", "Coordinates"), ("v", "Velocity"), ("force", "Force_Density"),
      ("fluidFlow", "Flux_Density"), ("contactForce", "Contact_Force_Density"),
      ("externalForce", "External_Force_Density"), ("temperature", "Temperature"),
      ("deltaTemperature", "Temperature_Change"), ("concentration", "Concentration"),
      ("fluidPressureU", "Fluid_Pressure_U"), ("fluidPressureY", "Fluid_Pressure_Y"),
      ("fluidPressureV", "Fluid_Pressure_V")]
  else
    [("u", "Displacement"), ("y", "Coordinates"), ("v", "Velocity"), ("force", "Force_Density"),
      ("contactForce", "Contact_Force_Density"), ("externalForce", "External_Force_Density"),
      ("temperature", "Temperature"), ("deltaTemperature", "Temperature_Change"), ("concentration", "Concentration"),
      ("fluxDivergence", "Flux_Divergence"), ("concentrationFluxDivergence", "Concentration_Flux_Divergence")]

/-- The copies into one block, one after the other.
Models src/core/Peridigm.cpp:4349-4361, 4366-4376. -/
def Block.importAll (b : Block V) (G : Globals V) (t : List (String × String)) : Block V :=
  t.foldl (fun b e => b.importData (G e.1) e.2 .np1) b

/-- The label of the field that is summed before output.
Models src/core/Peridigm.cpp:4385-4386. -/
def hourglass : String := "Hourglass_Force_Density"

/-- The summation of the hourglass forces; `scratch` is a vector on the global owned map.
Models src/core/Peridigm.cpp:4380-4398. -/
def sumHourglass [Zero V] [Add V] (scratch : Assembly.Dist V) (blocks : List (Block V)) : List (Block V) :=
  let sum := gather scratch (blocks.map (·.field hourglass .np1))
  blocks.map (·.importData (some sum) hourglass .np1)

/-- `synchDataManagers`; `registered` says whether the field of hourglass forces exists.
Models src/core/Peridigm.cpp:4340-4401. -/
def synchDataManagers [Zero V] [Add V] (multiphysics registered : Bool) (scratch : Assembly.Dist V) (G : Globals V)
    (blocks : List (Block V)) : List (Block V) :=
  let bs := blocks.map (·.importAll G (table multiphysics))
  if registered then sumHourglass scratch bs else bs

/-! ## Records of an analysis -/

/-- What leads to a record: what the solver does with the data of the blocks, and its vectors in the end. -/
structure Leg (V : Type) where
  work : List (Block V) → List (Block V)
  globals : Globals V

/-- A solver: the first record, and the steps.  Before the first record an explicit analysis that is not restarted
evaluates the model; other solvers, and an explicit analysis after a restart apart from copying the vectors, leave the
blocks alone, which is `work := id`.
Models src/core/Peridigm.cpp:1364-1434, 1441-1589 (explicit), 2080-2092, 2095-2465 (NOX), 2637-2650, 2655-2997
(quasi-static), 3121-3136, 3141-3273 (diffusion), 3699-3711, 3716-4015 (implicit). -/
structure Solver (V : Type) where
  first : Leg V
  steps : List (Leg V)

/-- The blocks when the record of a leg is written.
Models src/core/Peridigm.cpp:1428-1432, 1580-1584, 2090-2091, 2458-2459, 2648-2649, 2990-2991, 3134-3135, 3266-3267,
3709-3710, 4008-4009; the data loader is not modelled here. -/
def record [Zero V] [Add V] (multiphysics registered : Bool) (scratch : Assembly.Dist V) (l : Leg V)
    (bs : List (Block V)) : List (Block V) :=
  synchDataManagers multiphysics registered scratch l.globals (l.work bs)

/-- The records of the steps and the blocks in the end: every step ends with `updateState`.
Models src/core/Peridigm.cpp:1587-1589, 2462-2464, 2994-2996, 3270-3272, 4012-4014. -/
def runSteps [Zero V] [Add V] (multiphysics registered : Bool) (scratch : Assembly.Dist V) :
    List (Leg V) → List (Block V) → List (List (Block V)) × List (Block V)
  | [], bs => ([], bs)
  | l :: ls, bs =>
      let r := record multiphysics registered scratch l bs
      let rest := runSteps multiphysics registered scratch ls (r.map Block.updateState)
      (r :: rest.1, rest.2)

/-- The records of a solver and the blocks it leaves.
Models src/core/Peridigm.cpp:1290-1592, 1958-2468, 2470-3043, 3045-3279, 3620-4018. -/
def runSolver [Zero V] [Add V] (multiphysics registered : Bool) (scratch : Assembly.Dist V) (s : Solver V)
    (bs : List (Block V)) : List (List (Block V)) × List (Block V) :=
  let r := record multiphysics registered scratch s.first bs
  let rest := runSteps multiphysics registered scratch s.steps r
  (r :: rest.1, rest.2)

/-- `executeSolvers`: the records of all solvers.
Models src/core/Peridigm.cpp:1281-1288. -/
def executeSolvers [Zero V] [Add V] (multiphysics registered : Bool) (scratch : Assembly.Dist V) :
    List (Solver V) → List (Block V) → List (List (Block V))
  | [], _ => []
  | s :: ss, bs =>
      let r := runSolver multiphysics registered scratch s bs
      r.1 ++ executeSolvers multiphysics registered scratch ss r.2

/-! ## `computeInternalForce` -/

/-- A number of type `double`; `⊤` is anything that is not finite.  A sum is finite only if all terms are. -/
abbrev Num := WithTop ℝ

/-- The value of an element of a vector field; those of scalar fields have two more components that do not matter. -/
abbrev Vec := Fin 3 → Num

/-- The test `std::isfinite` for all entries of a vector.
Models src/core/Peridigm.cpp:1845-1850, 1875-1877. -/
def Finite (d : Assembly.Dist Vec) : Prop := ∀ part ∈ d, ∀ e ∈ part, ∀ i, e.2 i ≠ ⊤

/-- The copies made before the evaluation.
Models src/core/Peridigm.cpp:1853-1860. -/
def forceTable : List (String × String) :=
  [("u", "Displacement"), ("y", "Coordinates"), ("v", "Velocity"), ("temperature", "Temperature"),
    ("deltaTemperature", "Temperature_Change"), ("concentration", "Concentration")]

/-- Force densities times volumes, entry by entry in the order of storage.
Models src/core/Peridigm.cpp:1879-1884. -/
noncomputable def timesVolume (force : Assembly.Dist Vec) (volume : Assembly.Dist ℝ) : Assembly.Dist Vec :=
  List.zipWith (List.zipWith fun e v => (e.1, fun i => WithTop.map (· * v.2) (e.2 i))) force volume

/-- The vectors with which `computeInternalForce` works. -/
structure Mother where
  x : Assembly.Dist Vec
  u : Assembly.Dist Vec
  y : Assembly.Dist Vec
  v : Assembly.Dist Vec
  volume : Assembly.Dist ℝ
  others : Globals Vec

/-- The vectors by name. -/
def Mother.globals (m : Mother) : Globals Vec := fun n =>
  if n = "u" then some m.u else if n = "y" then some m.y else if n = "v" then some m.v else m.others n

open Classical in
/-- `computeInternalForce`: the force vector and the blocks in the end.  `eval` is `evalModel`.
Models src/core/Peridigm.cpp:1836-1885. -/
noncomputable def computeInternalForce (multiphysics : Bool) (eval : List (Block Vec) → Outcome (List (Block Vec)))
    (m : Mother) (blocks : List (Block Vec)) : Outcome (Assembly.Dist Vec × List (Block Vec)) :=
  if multiphysics then .fail .runtimeError
  else if ¬ (Finite m.x ∧ Finite m.u ∧ Finite m.y ∧ Finite m.v) then .fail .terminate
  else do
    let bs ← eval (blocks.map (·.importAll m.globals forceTable))
    let force := gather m.x (bs.map (·.field "Force_Density" .np1))
    if ¬ Finite force then .fail .terminate
    else .ok (timesVolume force m.volume, bs)

/-! ## Set-up of the synchronisation -/

/-- What the synchroniser asks of a block: the fields its material and damage model want to be synchronised after
`initialize` and after `precompute`; `damage` is `none` if the name of the damage model is "None". -/
structure Wants where
  material : List Nat
  damage : Option (List Nat)

/-- The ids of a block.
Models src/core/Peridigm.cpp:711-716, 719-723. -/
def Wants.ids (w : Wants) : List Nat := w.material ++ w.damage.getD []

/-- `setFieldIdsToSynchronizeAfterInitialize` and `setFieldIdsToSynchronizeAfterPrecompute`: append, sort, remove
duplicates.
Models src/core/Peridigm_Block.cpp:138-158. -/
def addIds (l ids : List Nat) : List Nat := sortUnique (l ++ ids)

/-- The ids after all blocks.
Models src/core/Peridigm.cpp:710, 717, 724. -/
def collectIds (blocks : List Wants) : List Nat := blocks.foldl (fun l w => addIds l w.ids) []

/-- The step that is synchronised.
Models src/core/Peridigm_Block.cpp:178-182, 217-221. -/
def stepOf (t : Field.Temporal) : Field.Step := if t = .twoStep then .np1 else .none

/-- The checks for one field; a block is represented by its `hasData`.
Models src/core/Peridigm_Block.cpp:165-193. -/
def checkField (fm : Field.FieldManager) (blocks : List (Nat → Field.Step → Bool)) (id : Nat) : Outcome Unit := do
  let s ← Field.getFieldSpec fm id
  if s.relation ≠ .node ∧ s.relation ≠ .element then .fail .terminate
  else if s.length ≠ .scalar ∧ s.length ≠ .vector then .fail .terminate
  else if blocks.any (fun has => !has id (stepOf s.temporal)) then .fail .terminate
  else .ok ()

/-- The checks of a list of fields, in order. -/
def checkFields (fm : Field.FieldManager) (blocks : List (Nat → Field.Step → Bool)) : List Nat → Outcome Unit
  | [] => .ok ()
  | id :: ids => do
      let _ ← checkField fm blocks id
      checkFields fm blocks ids

/-- `checkFieldValidity`.
Models src/core/Peridigm_Block.cpp:160-195. -/
def checkFieldValidity (fm : Field.FieldManager) (blocks : List (Nat → Field.Step → Bool))
    (afterInitialize afterPrecompute : List Nat) : Outcome Unit :=
  checkFields fm blocks (afterInitialize ++ afterPrecompute)

/-- The fields synchronised by `synchronize`, with step and whether they are scalars; other lengths terminate.
Models src/core/Peridigm_Block.cpp:207-250. -/
def synchronizeFields (fm : Field.FieldManager) : List Nat → Outcome (List (Nat × Field.Step × Bool))
  | [] => .ok []
  | id :: ids => do
      let s ← Field.getFieldSpec fm id
      if s.length = .scalar then do
        let rest ← synchronizeFields fm ids
        .ok ((id, stepOf s.temporal, true) :: rest)
      else if s.length = .vector then do
        let rest ← synchronizeFields fm ids
        .ok ((id, stepOf s.temporal, false) :: rest)
      else .fail .terminate

/-- The fields the elastic material stores, without thermal strains and partial stress.
Models src/materials/Peridigm_ElasticMaterial.cpp:88-95. -/
def elasticFields : List String :=
  ["Volume", "Damage", "Weighted_Volume", "Dilatation", "Model_Coordinates", "Coordinates", "Force_Density",
    "Bond_Damage"]

/-- The fields the bond-associated correspondence materials want to be synchronised after `precompute`.
Models src/materials/Peridigm_BondAssociatedCorrespondenceMaterial.hpp:88-97. -/
def bondAssociatedSynch : List String :=
  ["Deformation_Gradient_X", "Deformation_Gradient_Y", "Deformation_Gradient_Z", "Deformation_Gradient_Dot_X",
    "Deformation_Gradient_Dot_Y", "Deformation_Gradient_Dot_Z"]

/-- The fields the hypoelastic correspondence materials want to be synchronised after `initialize` and after
`precompute`.
Models src/materials/Peridigm_HypoelasticCorrespondenceMaterial.hpp:81-99. -/
def hypoelasticSynch : List String × List String :=
  (["Jacobian_Determinant", "Flying_Point_Flag"],
    ["Jacobian_Determinant", "Weighted_Volume", "Undamaged_Weighted_Volume", "Flying_Point_Flag",
      "Velocity_Gradient_X", "Velocity_Gradient_Y", "Velocity_Gradient_Z"])

/-- The fields "Linear LPS Partial Volume" wants to be synchronised after `initialize` and after `precompute`.
Models src/materials/Peridigm_LinearLPSPVMaterial.hpp:81-93. -/
def lpsSynch (analyticWeightedVolume : Bool) : List String × List String :=
  (if analyticWeightedVolume then [] else ["Weighted_Volume"], ["Dilatation"])

/-! ## Fields that start with a constant -/

/-- `PutScalar(k)` on the data of a field.
Models src/materials/Peridigm_HypoelasticCorrespondenceMaterial.cpp:475-479. -/
def fill (k : V) (b : BlockField V) : BlockField V :=
  { b with data := b.data.map fun d => d.map fun part => part.map fun e => (e.1, k) }

/-- A field that is set to a constant in `initialize`, synchronised then and again after every `precompute`, and not
written in between: the Jacobian determinant of step N+1 before the first evaluation, and the flying point flag.
Models src/core/Peridigm.cpp:671-674, 713-714, src/core/Peridigm_ModelEvaluator.cpp:100 and
src/materials/Peridigm_HypoelasticCorrespondenceMaterial.hpp:81-100. -/
def synchronizedTimes [Zero V] [Add V] (scratch : Assembly.Dist V) (blocks : List (BlockField V)) :
    Nat → List (BlockField V)
  | 0 => blocks
  | n + 1 => synchronize scratch (synchronizedTimes scratch blocks n)

/-! ## The dilatation beside other materials -/

/-- The dilatation in a block: data, the points the block owns on a processor, and whether its material is "Linear LPS
Partial Volume". -/
structure ThetaBlock (V : Type) where
  data : BlockField V
  own : Nat → Nat → Bool
  lps : Bool

/-- Writing the owned entries of a block, and `rest` in the others. -/
def ThetaBlock.write (b : ThetaBlock V) (value : Nat → V) (rest : Nat × V → V) : ThetaBlock V :=
  let d := b.data.data.map fun d => d.mapIdx fun q part =>
    part.map fun e => (e.1, if b.own q e.1 then value e.1 else rest e)
  { b with data := { b.data with data := d } }

/-- `precompute`: the LPS material sets the dilatation to zero and computes it for its own points; materials as the
elastic one do nothing.
Models src/materials/Peridigm_LinearLPSPVMaterial.cpp:239-293 and src/materials/Peridigm_Material.hpp (`precompute`). -/
def ThetaBlock.precompute [Zero V] (theta : Nat → V) (b : ThetaBlock V) : ThetaBlock V :=
  if b.lps then b.write theta (fun _ => 0) else b

/-- The synchronisation of the dilatation.
Models src/core/Peridigm_ModelEvaluator.cpp:100 and src/materials/Peridigm_LinearLPSPVMaterial.hpp:89-93. -/
def synchTheta [Zero V] [Add V] (scratch : Assembly.Dist V) (bs : List (ThetaBlock V)) : List (ThetaBlock V) :=
  let sum := gather scratch (bs.map ThetaBlock.data)
  bs.map fun b => { b with data := importInsert b.data sum }

/-- `computeForce`: the elastic material computes the dilatation of its own points and leaves those of ghosts.
Models src/materials/Peridigm_ElasticMaterial.cpp:170. -/
def ThetaBlock.computeForce (theta : Nat → V) (b : ThetaBlock V) : ThetaBlock V :=
  if b.lps then b else b.write theta Prod.snd

/-- The blocks with which `computeForce` is called.
Models src/core/Peridigm_ModelEvaluator.cpp:79-100. -/
def thetaSeen [Zero V] [Add V] (scratch : Assembly.Dist V) (theta : Nat → V) (bs : List (ThetaBlock V)) :
    List (ThetaBlock V) :=
  synchTheta scratch (bs.map (·.precompute theta))

/-- One evaluation of the model.
Models src/core/Peridigm_ModelEvaluator.cpp:79-124. -/
def evaluateTheta [Zero V] [Add V] (scratch : Assembly.Dist V) (theta : Nat → V) (bs : List (ThetaBlock V)) :
    List (ThetaBlock V) :=
  (thetaSeen scratch theta bs).map (·.computeForce theta)

end Verif.Synch
