import Verif.Common.Outcome
import Verif.Common.Epetra
import Verif.Dof.Model
import Mathlib.Data.Real.Basic

/-!
# Boundary and initial conditions (model)

Models src/core/Peridigm_BoundaryCondition.cpp and
src/core/Peridigm_BoundaryAndInitialConditionManager.cpp on one processor (vectors) and on all
processors (matrix).

Simplifications:
* A user function of position and time is a total map with `none` for a run-time failure of the
  RTCompiler; that its text compiles (`addBody`) is assumed.
* Numbers are exact reals; "not finite" arises only from a division by zero.
* Mothership vectors are flat maps from the local entry number to a value.  Writes only go to
  entries of owned nodes, `localNodeID*dim + coord` with `coord < dim`, so no bound is modelled.
-/

namespace Verif.BC

open Verif

/-- Kinds of conditions a user can ask for.
Models src/core/Peridigm_Enums.hpp `Boundary_Condition_Type` (the value
`NO_SUCH_BOUNDARY_CONDITION_TYPE`, which `initialize` ignores, is left out). -/
inductive BCType where
  | prescribedDisplacement
  | initialDisplacement
  | initialVelocity
  | prescribedFluidPressure
  | initialFluidPressure
  | initialTemperature
  | prescribedTemperature
  | thermalFlux
  | bodyForce
deriving DecidableEq, Repr

/-- The mothership vectors conditions write to.
Models the `peridigm->getX()` calls in
src/core/Peridigm_BoundaryAndInitialConditionManager.cpp:95-174. -/
inductive Target where
  | u | v | y | deltaU
  | fluidPressureU | fluidPressureV | fluidPressureY | fluidPressureDeltaU
  | temperature | deltaTemperature
  | externalForce
deriving DecidableEq, Repr

/-- Entries per node.
Models `to_dimension_size(tensorOrder)`, src/core/Peridigm_Enums.cpp:175-195, with the tensor order
chosen at src/core/Peridigm_BoundaryCondition.cpp:87-95. -/
def dim : Target → Nat
  | .u | .v | .y | .deltaU | .externalForce => 3
  | _ => 1

/-- The values of all mothership vectors on one processor, by local entry number. -/
abbrev Vecs := Target → Nat → ℝ

/-- One condition as written in the input deck.
Models the parameters read at src/core/Peridigm_BoundaryCondition.cpp:66-77: type, node set,
coordinate and value. -/
structure Definition where
  type : BCType
  nodeSet : String
  coord : Fin 3
  /-- value at position (x, y, z) and time t; `none` if the compiled function fails -/
  value : ℝ → ℝ → ℝ → ℝ → Option ℝ

/-- The three classes of conditions.
Models src/core/Peridigm_BoundaryCondition.hpp:152-230. -/
inductive Kind where
  | dirichlet
  | increment (coeff deltaTCoeff : ℝ) (relativeToInitial : Bool)
  | neumann

/-- A constructed condition object.
Models the members set in src/core/Peridigm_BoundaryCondition.cpp:56-96, 189-200. -/
structure Condition where
  type : BCType
  nodeSet : String
  coord : Nat
  value : ℝ → ℝ → ℝ → ℝ → Option ℝ
  target : Target
  kind : Kind

/-- The constructor with its check that a scalar field has no coordinate.
Models src/core/Peridigm_BoundaryCondition.cpp:56-96. -/
def construct (d : Definition) (target : Target) (kind : Kind) : Outcome Condition :=
  if dim target = 1 ∧ d.coord ≠ 0 then .fail .runtimeError
  else .ok { type := d.type, nodeSet := d.nodeSet, coord := d.coord, value := d.value,
             target := target, kind := kind }

/-- The three lists of the manager.
Models src/core/Peridigm_BoundaryAndInitialConditionManager.hpp members `initialConditions`,
`boundaryConditions`, `forceContributions`. -/
structure Conditions where
  initial : List Condition := []
  boundary : List Condition := []
  force : List Condition := []

/-- One pass of the loop over the input deck.
Models src/core/Peridigm_BoundaryAndInitialConditionManager.cpp:93-180. -/
def addDefinition (cs : Conditions) (d : Definition) : Outcome Conditions :=
  match d.type with
  | .initialDisplacement => do
      let c ← construct d .u .dirichlet
      .ok { cs with initial := cs.initial ++ [c] }
  | .initialVelocity => do
      let c ← construct d .v .dirichlet
      .ok { cs with initial := cs.initial ++ [c] }
  | .prescribedDisplacement => do
      let c ← construct d .deltaU (.increment 1 0 false)
      let c' ← construct d .v (.increment 0 1 false)
      .ok { cs with boundary := cs.boundary ++ [c, c'] }
  | .prescribedFluidPressure => do
      let c ← construct d .fluidPressureDeltaU (.increment 1 0 false)
      let c' ← construct d .fluidPressureV (.increment 0 1 false)
      .ok { cs with boundary := cs.boundary ++ [c, c'] }
  | .initialFluidPressure => do
      let c ← construct d .fluidPressureU .dirichlet
      .ok { cs with initial := cs.initial ++ [c] }
  | .initialTemperature => do
      let c ← construct d .temperature .dirichlet
      .ok { cs with initial := cs.initial ++ [c] }
  | .prescribedTemperature => do
      let c ← construct d .temperature .dirichlet
      let c' ← construct d .deltaTemperature (.increment 1 0 true)
      .ok { cs with boundary := cs.boundary ++ [c, c'] }
  | .thermalFlux => do
      let c ← construct d .temperature .neumann
      .ok { cs with boundary := cs.boundary ++ [c] }
  | .bodyForce => do
      let c ← construct d .externalForce .dirichlet
      .ok { cs with force := cs.force ++ [c] }

/-- `BoundaryAndInitialConditionManager::initialize`, without the node sets.
Models src/core/Peridigm_BoundaryAndInitialConditionManager.cpp:70-183 (`hasPrescVel` is never set,
so the final test never fires; reading the parameters and `createRankDeficientBC` are in
Verif/Deck/Model.lean). -/
def makeConditions (ds : List Definition) : Outcome Conditions :=
  ds.foldlM addDefinition {}

/-! ## Node sets -/

/-- Node sets of one processor, by tidied name. -/
abbrev NodeSets := String → Option (List Nat)

/-- The loop `while(ss.good()) { ss >> nodeID; ...push_back(nodeID - 1); }`.  `tokens` are the
integers in the string, `none` for text that is not an integer (the extraction then stores 0);
`trailing` says that white space follows the last token, in which case the stream is still good
after it and the failed extraction leaves `nodeID` as it was; with no token at all `nodeID` is
read uninitialised.
Models src/core/Peridigm_BoundaryAndInitialConditionManager.cpp:224-231. -/
def parseNodeList (trailing : Bool) : List (Option Int) → Outcome (List Nat)
  | [] => .ub
  | [t] =>
      match t with
      | none => .fail .runtimeError
      | some i =>
          if i < 1 then .fail .runtimeError
          else .ok (if trailing then [(i - 1).toNat, (i - 1).toNat] else [(i - 1).toNat])
  | t :: t' :: ts =>
      match t with
      | none => .fail .runtimeError
      | some i =>
          if i < 1 then .fail .runtimeError
          else do
            let rest ← parseNodeList trailing (t' :: ts)
            .ok ((i - 1).toNat :: rest)

/-- Adds one node set, refusing a name already present.
Models src/core/Peridigm_BoundaryAndInitialConditionManager.cpp:216-217, 265-267. -/
def addNodeSet (sets : NodeSets) (name : String) (nodes : List Nat) : Outcome NodeSets :=
  match sets name with
  | some _ => .fail .runtimeError
  | none => .ok fun s => if s = name then some nodes else sets s

/-- Adds the node sets one after the other (first those of the input deck, then those of the mesh
file).
Models src/core/Peridigm_BoundaryAndInitialConditionManager.cpp:207-268. -/
def addNodeSets : NodeSets → List (String × List Nat) → Outcome NodeSets
  | sets, [] => .ok sets
  | sets, (n, l) :: rest => do
      let sets' ← addNodeSet sets n l
      addNodeSets sets' rest

/-- Removes the nodes that are not owned by this processor.
Models src/core/Peridigm_BoundaryAndInitialConditionManager.cpp:274-285. -/
def cull (owned : List Nat) (sets : NodeSets) : NodeSets :=
  fun s => (sets s).map fun l => l.filter fun g => decide (g ∈ owned)

/-- `initializeNodeSets`, from the parsed lists.
Models src/core/Peridigm_BoundaryAndInitialConditionManager.cpp:205-286 (reading the texts and files and
the placeholder set of rank deficient nodes are in Verif/Deck/Model.lean). -/
def initializeNodeSets (owned : List Nat) (all : List (String × List Nat)) : Outcome NodeSets := do
  let sets ← addNodeSets (fun _ => none) all
  .ok (cull owned sets)

/-! ## Applying a condition -/

/-- `LID`, `none` for -1, in a map whose local order is `owned`. -/
def lid (owned : List Nat) (g : Nat) : Option Nat :=
  if g ∈ owned then some (owned.idxOf g) else none

/-- What is fixed while conditions are applied: the local order of the owned nodes, the node sets
and the reference coordinates. -/
structure Ctx where
  owned : List Nat
  sets : NodeSets
  x : Nat → ℝ

/-- Evaluation of the user function at local node `l` and time `t`.
Models src/core/Peridigm_BoundaryCondition.cpp:105-119 (and 121-126). -/
def callFunction (C : Ctx) (c : Condition) (l : Nat) (t : ℝ) : Outcome ℝ :=
  match c.value (C.x (l * 3)) (C.x (l * 3 + 1)) (C.x (l * 3 + 2)) t with
  | some r => .ok r
  | none => .fail .runtimeError

open Classical in
/-- `evaluateParser`: the pair (current value, previous value).
Models src/core/Peridigm_BoundaryCondition.cpp:98-148. -/
noncomputable def evaluateParser (C : Ctx) (c : Condition) (u : Nat → ℝ) (l : Nat) (tc tp : ℝ) :
    Outcome (ℝ × ℝ) := do
  let prev ← callFunction C c l tp
  let cur ← callFunction C c l tc
  .ok (cur, if c.type = .prescribedDisplacement ∧ cur - prev = 0 then u (l * 3 + c.coord) else prev)

open Classical in
/-- The value `DirichletIncrementBC::apply` computes from the two function values; a time
difference of zero makes it not finite.
Models src/core/Peridigm_BoundaryCondition.cpp:235-237. -/
noncomputable def incrementValue (coeff deltaTCoeff tc tp cur prev : ℝ) : Outcome ℝ :=
  if tc - tp = 0 then .fail .terminate
  else .ok (coeff * (cur - prev) + deltaTCoeff * (cur - prev) * (1 / (tc - tp)))

/-- `timePrevious_`.
Models src/core/Peridigm_BoundaryCondition.cpp:211. -/
def previousTime (relativeToInitial : Bool) (tp : ℝ) : ℝ :=
  if relativeToInitial then 0 else tp

/-- The value written for local node `l`.
Models src/core/Peridigm_BoundaryCondition.cpp:180-184 (`DirichletBC`; the previous time passed to
the parser is the default 0), 232-238 (`DirichletIncrementBC`) and 261-262, 311 (`NeumannBC`,
whose nodal values are set to zero on construction and never changed). -/
noncomputable def nodeValue (C : Ctx) (c : Condition) (u : Nat → ℝ) (tc tp : ℝ) (l : Nat) :
    Outcome ℝ :=
  match c.kind with
  | .dirichlet => do
      let r ← evaluateParser C c u l tc 0
      .ok r.1
  | .increment coeff deltaTCoeff rel => do
      let r ← evaluateParser C c u l tc (previousTime rel tp)
      incrementValue coeff deltaTCoeff tc (previousTime rel tp) r.1 r.2
  | .neumann => .ok 0

/-- Assignment to one entry of one mothership vector. -/
def write (s : Vecs) (t : Target) (i : Nat) (r : ℝ) : Vecs :=
  fun t' i' => if t' = t ∧ i' = i then r else s t' i'

/-- One pass of the loop over the node list.
Models src/core/Peridigm_BoundaryCondition.cpp:178-185, 230-239, 308-312. -/
noncomputable def applyNode (C : Ctx) (c : Condition) (tc tp : ℝ) (s : Vecs) (g : Nat) :
    Outcome Vecs :=
  match lid C.owned g with
  | none => .ok s
  | some l => do
      let r ← nodeValue C c (s .u) tc tp l
      .ok (write s c.target (l * dim c.target + c.coord) r)

/-- The body of `apply` after the early return.
Models src/core/Peridigm_BoundaryCondition.cpp:174-186, 226-240, 304-313. -/
noncomputable def applyToSet (C : Ctx) (c : Condition) (tc tp : ℝ) (s : Vecs) : Outcome Vecs :=
  match C.sets c.nodeSet with
  | none => .fail .terminate
  | some nodes => nodes.foldlM (applyNode C c tc tp) s

open Classical in
/-- The early return of `DirichletIncrementBC::apply`.
Models src/core/Peridigm_BoundaryCondition.cpp:208-209. -/
noncomputable def skips (c : Condition) (tc tp : ℝ) : Bool :=
  match c.kind with
  | .increment _ _ _ => decide (tc = tp)
  | _ => false

/-- `apply`.
Models src/core/Peridigm_BoundaryCondition.cpp:157-187, 202-241, 297-314. -/
noncomputable def apply (C : Ctx) (tc tp : ℝ) (s : Vecs) (c : Condition) : Outcome Vecs :=
  if skips c tc tp then .ok s else applyToSet C c tc tp s

/-- `applyBoundaryConditions`.
Models src/core/Peridigm_BoundaryAndInitialConditionManager.cpp:298-302. -/
noncomputable def applyBoundary (C : Ctx) (cs : List Condition) (tc tp : ℝ) (s : Vecs) :
    Outcome Vecs :=
  cs.foldlM (apply C tc tp) s

/-- `clearForceContributions`.
Models src/core/Peridigm_BoundaryAndInitialConditionManager.cpp:311-314. -/
def clearForce (s : Vecs) : Vecs := fun t i => if t = .externalForce then 0 else s t i

/-- `applyForceContributions`.
Models src/core/Peridigm_BoundaryAndInitialConditionManager.cpp:304-309. -/
noncomputable def applyForces (C : Ctx) (cs : List Condition) (tc tp : ℝ) (s : Vecs) :
    Outcome Vecs :=
  cs.foldlM (apply C tc tp) (clearForce s)

/-- The updates that follow the conditions on initial displacement and initial fluid pressure.
Models src/core/Peridigm_BoundaryAndInitialConditionManager.cpp:291-294, 316-322. -/
def afterInitial (C : Ctx) (t : BCType) (s : Vecs) : Vecs :=
  match t with
  | .initialDisplacement => fun t' i => if t' = .y then C.x i + s .u i else s t' i
  | .initialFluidPressure => fun t' i => if t' = .fluidPressureY then s .fluidPressureU i else s t' i
  | _ => s

/-- `applyInitialConditions` (both times are the defaults 0).
Models src/core/Peridigm_BoundaryAndInitialConditionManager.cpp:288-296. -/
noncomputable def applyInitial (C : Ctx) (cs : List Condition) (s : Vecs) : Outcome Vecs :=
  cs.foldlM (fun s c => do
    let s' ← apply C 0 0 s c
    .ok (afterInitial C c.type s')) s

/-! ## Kinematic conditions on residual and tangent -/

/-- Which conditions constrain unknowns, and the offset of the unknown.
Models src/core/Peridigm_BoundaryAndInitialConditionManager.cpp:340-354, 386-400, 437-451. -/
def constrains (m : Dof.Manager) (t : BCType) : Option Nat :=
  match t with
  | .prescribedDisplacement =>
      if m.active .displacement then some (m.offset .displacement) else none
  | .prescribedFluidPressure =>
      if m.active .pressure then some (m.offset .pressure) else none
  | .prescribedTemperature | .thermalFlux =>
      if m.active .temperature then some (m.offset .temperature) else none
  | _ => none

/-- Global ids of the tangent map: the slots of each owned node in turn.
Models src/core/Peridigm.cpp:4030-4037. -/
def tangentGids (numDof : Nat) (owned : List Nat) : List Nat :=
  owned.flatMap fun g => (List.range numDof).map fun k => numDof * g + k

/-- Assignment `vec[i] = r`; undefined outside the vector. -/
def assign (vec : List ℝ) (i : Nat) (r : ℝ) : Outcome (List ℝ) :=
  if i < vec.length then .ok (vec.set i r) else .ub

/-- One pass of the loop over the node list.
Models src/core/Peridigm_BoundaryAndInitialConditionManager.cpp:409-411. -/
def zeroNode (gids : List Nat) (numDof slot : Nat) (vec : List ℝ) (g : Nat) : Outcome (List ℝ) :=
  match lid gids (numDof * g) with
  | none => .ok vec
  | some l => assign vec (l + slot) 0

/-- The work for one condition.
Models src/core/Peridigm_BoundaryAndInitialConditionManager.cpp:386-413. -/
def zeroCondition (m : Dof.Manager) (gids : List Nat) (sets : NodeSets) (vec : List ℝ)
    (c : Condition) : Outcome (List ℝ) :=
  match constrains m c.type with
  | none => .ok vec
  | some offset =>
      match sets c.nodeSet with
      | none => .fail .runtimeError
      | some nodes => nodes.foldlM (zeroNode gids m.total (offset + c.coord)) vec

/-- `applyKinematicBC_InsertZeros` on a vector whose map has the global ids `gids` (element size
1, the alternative to which terminates).
Models src/core/Peridigm_BoundaryAndInitialConditionManager.cpp:372-416. -/
def insertZeros (m : Dof.Manager) (gids : List Nat) (sets : NodeSets) (cs : List Condition)
    (vec : List ℝ) : Outcome (List ℝ) :=
  cs.foldlM (zeroCondition m gids sets) vec

/-- One pass of the loop over the node list: copies one entry of the force.
Models src/core/Peridigm_BoundaryAndInitialConditionManager.cpp:363-365. -/
def reactNode (owned : List Nat) (numDof slot : Nat) (force react : List ℝ) (g : Nat) :
    Outcome (List ℝ) :=
  match lid owned g with
  | none => .ok react
  | some l =>
      match force[numDof * l + slot]? with
      | none => .ub
      | some r => assign react (numDof * l + slot) r

/-- The work for one condition.
Models src/core/Peridigm_BoundaryAndInitialConditionManager.cpp:340-367. -/
def reactCondition (m : Dof.Manager) (owned : List Nat) (sets : NodeSets) (force react : List ℝ)
    (c : Condition) : Outcome (List ℝ) :=
  match constrains m c.type with
  | none => .ok react
  | some offset =>
      match sets c.nodeSet with
      | none => .fail .runtimeError
      | some nodes => nodes.foldlM (reactNode owned m.total (offset + c.coord) force) react

/-- `applyKinematicBC_ComputeReactions` on vectors over the owned nodes.
Models src/core/Peridigm_BoundaryAndInitialConditionManager.cpp:324-370. -/
def computeReactions (m : Dof.Manager) (owned : List Nat) (sets : NodeSets) (cs : List Condition)
    (force : List ℝ) : Outcome (List ℝ) :=
  cs.foldlM (reactCondition m owned sets force) (force.map fun _ => 0)

/-- One processor's part of the tangent: its rows, its column map and its entries, by global id;
`none` where the sparsity structure has no entry. -/
structure RankMatrix where
  rows : List Nat
  cols : List Nat
  entry : Nat → Nat → Option ℝ

/-- `ReplaceMyValues` for one entry: ignored where the structure has none.
Models the behaviour quoted at
src/core/Peridigm_BoundaryAndInitialConditionManager.cpp:495-498. -/
def replace (e : Nat → Nat → Option ℝ) (r c : Nat) (a : ℝ) : Nat → Nat → Option ℝ :=
  fun r' c' => if r' = r ∧ c' = c then (e r' c').map (fun _ => a) else e r' c'

/-- Sets the listed columns to zero in the listed rows.
Models src/core/Peridigm_BoundaryAndInitialConditionManager.cpp:480-481. -/
def zeroColumns (e : Nat → Nat → Option ℝ) (rows cols : List Nat) : Nat → Nat → Option ℝ :=
  rows.foldl (fun e r => cols.foldl (fun e c => replace e r c 0) e) e

/-- Overwrites one row with zeros and the diagonal value.
Models src/core/Peridigm_BoundaryAndInitialConditionManager.cpp:486-501. -/
def setRow (e : Nat → Nat → Option ℝ) (rows cols : List Nat) (d : ℝ) (gid : Nat) :
    Nat → Nat → Option ℝ :=
  if gid ∈ rows then cols.foldl (fun e c => replace e gid c (if c = gid then d else 0)) e else e

/-- The work for one condition.  The list of columns is collected in an array of `NumMyCols`
elements; more hits than that overrun it.
Models src/core/Peridigm_BoundaryAndInitialConditionManager.cpp:437-503. -/
def matrixCondition (m : Dof.Manager) (sets : NodeSets) (d : ℝ) (A : RankMatrix) (c : Condition) :
    Outcome RankMatrix :=
  match constrains m c.type with
  | none => .ok A
  | some offset =>
      match sets c.nodeSet with
      | none => .fail .runtimeError
      | some nodes =>
          let gids := nodes.map fun g => m.total * g + offset + c.coord
          let colHits := gids.filter fun k => decide (k ∈ A.cols)
          if A.cols.length < colHits.length then .ub
          else
            .ok { A with
              entry := gids.foldl (fun e k => setRow e A.rows A.cols d k)
                (zeroColumns A.entry A.rows colHits) }

/-- Sum of the absolute values of one processor's diagonal; an absent entry counts as zero.
Models src/core/Peridigm_BoundaryAndInitialConditionManager.cpp:424-427. -/
noncomputable def diagonalNorm (A : RankMatrix) : ℝ :=
  (A.rows.map fun r => |(A.entry r r).getD 0|).sum

/-- The value put on the diagonal of constrained rows; the length of the vector is the number of
rows of all processors.
Models src/core/Peridigm_BoundaryAndInitialConditionManager.cpp:424-428. -/
noncomputable def diagonalEntry (As : List RankMatrix) : Outcome ℝ :=
  if (As.map fun A => A.rows.length).sum = 0 then .ub
  else .ok (-1 * (As.map diagonalNorm).sum / ((As.map fun A => A.rows.length).sum : ℕ))

/-- `applyKinematicBC_InsertZerosAndSetDiagonal` on one processor, given the common diagonal value.
Models src/core/Peridigm_BoundaryAndInitialConditionManager.cpp:433-504. -/
def matrixConditions (m : Dof.Manager) (sets : NodeSets) (cs : List Condition) (d : ℝ)
    (A : RankMatrix) : Outcome RankMatrix :=
  cs.foldlM (matrixCondition m sets d) A

end Verif.BC
