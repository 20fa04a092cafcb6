import Verif.Params.Model
import Verif.Neigh.Model

/-!
# Model of the set-up of an analysis

Models the parts of the constructor `Peridigm::Peridigm` that select solvers and tangents, give each block its
material and damage model, fill the vector of densities and decide on the node set of rank deficient points, and
`MaterialFactory::create`, `DamageModelFactory::create`, `Peridigm::execute`.

Simplifications: parameters have the types the code asks for; a Teuchos exception is `fail runtimeError`; the
constructors of the material and damage models are not called here (their own checks are modelled elsewhere): a created
object is the name of the model with the parameters it gets; real arithmetic; the names of models that need a special
build (`Elastic Partial Volume` and two others) are refused, as in the standard build.
-/

noncomputable section

namespace Verif.Setup

open Verif Verif.Params
open scoped Classical

/-- `s.find(part) != std::string::npos`. -/
def contains (part s : String) : Bool := decide (part.toList <:+: s.toList)

/-! ### Multiphysics -/

/-- `analysisHasMultiphysics`: `v` is the parameter "Multiphysics", if given.
Models src/core/Peridigm.cpp:162-181. -/
def multiphysics (v : Option ℤ) : Outcome Bool :=
  match v with
  | none => .ok false
  | some n => if n = 1 then .ok true else .fail .runtimeError

/-- The check at the start; processes other than the first do not make it.
Models src/core/Peridigm.cpp:143-148. -/
def restartCheck (first : Bool) (multi : Option ℤ) (restart : Bool) : Outcome Unit :=
  if first ∧ multi.isSome ∧ restart then .fail .runtimeError else .ok ()

/-! ### Solvers -/

/-- An entry of the top-level parameter list: a sublist or a single value. -/
inductive Entry (S : Type) where
  | list (s : S)
  | value

/-- One pass of the loop that collects the solvers; `sublist` throws if the entry is a single value.
Models src/core/Peridigm.cpp:210-216. -/
def collectSolver {S : Type} (acc : List S) (e : String × Entry S) : Outcome (List S) :=
  if contains "Solver" e.1 then
    match e.2 with
    | .list s => .ok (acc ++ [s])
    | .value => .fail .runtimeError
  else .ok acc

/-- `solverParameters`.
Models src/core/Peridigm.cpp:209-217. -/
def solverParameters {S : Type} (entries : List (String × Entry S)) : Outcome (List S) :=
  entries.foldlM collectSolver []

/-- What the set-up reads of a solver's parameters: which sublists it has, and "Peridigm Preconditioner". -/
structure SolverList where
  verlet : Bool := false
  quasiStatic : Bool := false
  noxQuasiStatic : Bool := false
  implicit : Bool := false
  implicitDiffusion : Bool := false
  preconditioner : Option String := none
  deriving DecidableEq

/-- The time integration schemes. -/
inductive Scheme where
  | explicit | quasiStatic | noxQuasiStatic | implicit | implicitDiffusion
  deriving DecidableEq

/-- Which scheme `execute` runs.
Models src/core/Peridigm.cpp:1257-1276. -/
def scheme (s : SolverList) : Outcome Scheme :=
  if s.verlet then .ok .explicit
  else if s.quasiStatic then .ok .quasiStatic
  else if s.noxQuasiStatic then .ok .noxQuasiStatic
  else if s.implicit then .ok .implicit
  else if s.implicitDiffusion then .ok .implicitDiffusion
  else .fail .runtimeError

/-- The three flags set in the loop over the solvers. -/
structure TangentFlags where
  implicitTimeIntegration : Bool := false
  fullTangent : Bool := false
  blockDiagonal : Bool := false

/-- One pass of the loop.
Models src/core/Peridigm.cpp:234-249. -/
def addFlags (f : TangentFlags) (s : SolverList) : TangentFlags where
  implicitTimeIntegration := f.implicitTimeIntegration ||
    (s.quasiStatic || s.noxQuasiStatic || s.implicit) || s.implicitDiffusion
  fullTangent := f.fullTangent || decide (s.preconditioner = some "Full Tangent")
  blockDiagonal := f.blockDiagonal ||
    decide (s.preconditioner = some "Block 3x3" ∨ s.preconditioner = some "None")

/-- `allocateTangent`; `coupling` says that "Optimization Based Coupling" is given.
Models src/core/Peridigm.cpp:232-258. -/
def allocateTangent (solvers : List SolverList) (coupling : Bool) : Bool :=
  let f := solvers.foldl addFlags {}
  f.fullTangent || (f.implicitTimeIntegration && (!f.fullTangent && !f.blockDiagonal)) || coupling

/-- `allocateBlockDiagonalTangent`.
Models src/core/Peridigm.cpp:250-254. -/
def allocateBlockDiagonal (solvers : List SolverList) : Bool :=
  (solvers.foldl addFlags {}).blockDiagonal

/-- The matrix the solvers work with: `tangent` and `jacobianType`. -/
inductive Tangent where
  | none | full | blockDiagonal
  deriving DecidableEq

/-- The allocations.  If both are asked for the block diagonal points to the full matrix (4121-4129).  No compute class
requests a tangent.
Models src/core/Peridigm.cpp:741-783 and 4116-4129. -/
def allocated (solvers : List SolverList) (coupling : Bool) : Tangent :=
  if allocateTangent solvers coupling then .full
  else if allocateBlockDiagonal solvers then .blockDiagonal
  else .none

/-! ### The node set of rank deficient points -/

/-- The parameters of a block that the set-up reads: "Material" and "Damage Model". -/
structure BlockParams where
  material : Option String
  damage : Option String

/-- `getDamageModelName`.
Models src/core/Peridigm_Block.hpp:107-110. -/
def BlockParams.damageName (b : BlockParams) : String := b.damage.getD "None"

/-- `hasDamage`: `defs` are the entries of the "Blocks" section.
Models src/core/Peridigm.cpp:276-280. -/
def hasDamage (defs : List BlockParams) : Bool := defs.any fun d => d.damage.isSome

/-- Whether the boundary condition manager is asked to create the set `RANK_DEFICIENT_NODES`; `user` is the parameter
"Create Node Set For Rank Deficient Nodes", if given (its value is read at
src/core/Peridigm_BoundaryAndInitialConditionManager.cpp:58-68).
Models src/core/Peridigm.cpp:274-285. -/
def createDeficientSet (solvers : List SolverList) (coupling : Bool) (defs : List BlockParams) (user : Option Bool) :
    Bool :=
  match user with
  | some v => v
  | none => allocateTangent solvers coupling && hasDamage defs

/-! ### Materials -/

variable {M : Type}

/-- One material of the "Materials" section: the model, whether it has a parameter "Horizon", the probe length and the
other parameters. -/
structure MaterialList (M : Type) where
  model : Option String
  horizon : Option ℝ
  probe : Option ℝ
  rest : M

/-- The names `MaterialFactory::create` accepts.
Models src/materials/Peridigm_MaterialFactory.cpp:86-131. -/
def materialModels : List String :=
  ["Elastic", "Multiphysics Elastic", "Elastic Plastic", "Elastic Plastic Hardening", "Viscoelastic",
    "Elastic Plastic Correspondence", "Elastic Correspondence", "Viscoplastic Needleman Correspondence",
    "Isotropic Hardening Correspondence", "Elastic Hypoelastic Correspondence",
    "Elastic Plastic Hypoelastic Correspondence", "Isotropic Hardening Hypoelastic Correspondence",
    "Elastic Bond Associated Correspondence", "Elastic Plastic Bond Associated Correspondence",
    "Isotropic Hardening Bond Associated Correspondence", "LCM", "Elastic Bond Based", "Vector Poisson", "Diffusion",
    "Pals", "Linear LPS Partial Volume"]

/-- A material object: its model and the parameters its constructor gets. -/
structure Material (M : Type) where
  model : String
  horizon : Option ℝ
  probe : Option ℝ
  rest : M

/-- `MaterialFactory::create`.
Models src/materials/Peridigm_MaterialFactory.cpp:80-160. -/
def createMaterial (p : MaterialList M) : Outcome (Material M) :=
  match p.model with
  | none => .fail .runtimeError
  | some n => if n ∈ materialModels then .ok ⟨n, p.horizon, p.probe, p.rest⟩ else .fail .runtimeError

/-- The horizon of a block, if it is constant.
Models src/core/Peridigm.cpp:391-396. -/
def blockHorizon (rtc : Compiler) (hm : Horizons) (name : String) : Outcome (Option ℝ) := do
  let c ← hasConstantHorizon hm name
  if c then do
    let h ← constantHorizon rtc hm name
    .ok (some h)
  else .ok none

/-- The screening of the names of the materials.
Models src/core/Peridigm.cpp:404-412. -/
def screen (multi : Bool) (materialName : String) : Outcome Unit :=
  if multi ∧ contains "Multiphysics" materialName = false then .fail .runtimeError
  else if multi = false ∧ contains "Multiphysics" materialName then .fail .runtimeError
  else .ok ()

/-- The copy of the material's parameters with the horizon and the probe length of the block.
Models src/core/Peridigm.cpp:414-426. -/
def fillParams (h : Option ℝ) (probe : ℝ) (p : MaterialList M) : Outcome (MaterialList M) :=
  if p.horizon.isSome then .fail .runtimeError
  else .ok { p with horizon := h, probe := some (p.probe.getD probe) }

/-- The material of one block.  `materials` is the "Materials" section; `sublist` makes an empty list for a name that is
not there, in which the factory then finds no model.
Models src/core/Peridigm.cpp:388-431. -/
def blockMaterial (rtc : Compiler) (hm : Horizons) (multi : Bool) (probe : ℝ) (materials : String → Option (MaterialList M))
    (b : Params.Block BlockParams) : Outcome (Material M) := do
  let h ← blockHorizon rtc hm b.name
  match b.params.material with
  | none => .fail .runtimeError
  | some name => do
    screen multi name
    match materials name with
    | none => .fail .runtimeError
    | some p => do
      let p' ← fillParams h probe p
      createMaterial p'

/-- The default probe length for finite differences.
Models src/core/Peridigm.cpp:373-375. -/
def defaultProbe (minElementRadius : ℝ) : ℝ := 0.000001 * minElementRadius

/-- The loop over the blocks: a material for each.
Models src/core/Peridigm.cpp:387-431. -/
def materials (rtc : Compiler) (hm : Horizons) (multi : Bool) (probe : ℝ) (ms : String → Option (MaterialList M)) :
    List (Params.Block BlockParams) → Outcome (List (Params.Block BlockParams × Material M))
  | [] => .ok []
  | b :: bs => do
    let m ← blockMaterial rtc hm multi probe ms b
    let rest ← materials rtc hm multi probe ms bs
    .ok ((b, m) :: rest)

/-! ### Densities -/

/-- One block: the global ids of its owned points on this processor and the density of its material. -/
structure BlockDensity where
  owned : List Nat
  density : ℝ

/-- Assignment to the entry of one point; `LID` gives -1 for a point that the map does not have, and the write is then
outside the vector.
Models src/core/Peridigm.cpp:667-669. -/
def setDensity (map : List Nat) (rho : ℝ) (d : Nat → ℝ) (g : Nat) : Outcome (Nat → ℝ) :=
  if g ∈ map then .ok (Function.update d (map.idxOf g) rho) else .ub

/-- One block.
Models src/core/Peridigm.cpp:663-670. -/
def setBlockDensity (map : List Nat) (d : Nat → ℝ) (b : BlockDensity) : Outcome (Nat → ℝ) :=
  b.owned.foldlM (setDensity map b.density) d

/-- The loop over the blocks.
Models src/core/Peridigm.cpp:661-683 (the two vectors of the fluid, filled in the same way, are left out). -/
def setDensities (map : List Nat) (d : Nat → ℝ) (bs : List BlockDensity) : Outcome (Nat → ℝ) :=
  bs.foldlM (setBlockDensity map) d

end Verif.Setup
