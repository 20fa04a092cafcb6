import Verif.Assembly.Model
import Verif.Contact.Model
import Verif.Contact.RebalanceModel

/-!
# Model of contact forces from the input to the vector the time integrator adds

`ContactManager::initialize` (the choice of parameters), `loadAllMothershipData`, `initializeContactBlocks`,
`rebalance`, `importData`, `evaluateContactForce`, `exportData` (/repo/src/core/Peridigm_ContactManager.cpp), the two
contact models, and the places where `Peridigm` calls them (/repo/src/core/Peridigm.cpp), on all processors
together.

Simplifications.  Numbers are exact.  The new decomposition and the search result of a rebalance are inputs, as in
`Verif.Contact.RebalanceModel`.  The maps between which vectors are moved are one-to-one, so a transfer takes the value
of an id from the only processor that holds it.  `DataManager::rebalance` of the contact blocks is not followed:
every value it moves is overwritten by the imports that come next.  The run-time compiler is a parameter.
-/

noncomputable section

namespace Verif.Touch

open Verif Verif.Mech Verif.Neigh Verif.Assembly
open scoped Classical

/-! ### Contact models -/

/-- A compiled function body: from the time and the value the variable `value` has before, the value it has after;
`none` if `execute` reports an error. -/
abbrev Body := ℝ → ℝ → Option ℝ

/-- How a contact model gets its friction coefficient: from the input, or from a text that may not compile.
Models src/contact/Peridigm_ShortRangeForceContactModel.cpp:93-95 and
src/contact/Peridigm_UserDefinedTimeDependentShortRangeForceContactModel.cpp:108-120. -/
inductive Friction where
  | fixed
  | timed (body : Option Body)

/-- A contact model.
Models src/contact/Peridigm_ShortRangeForceContactModel.hpp:97-101 and
src/contact/Peridigm_UserDefinedTimeDependentShortRangeForceContactModel.hpp:107-117. -/
structure Model where
  params : Contact.Params
  source : Friction

/-- An entry of a parameter list. -/
inductive Value where
  | real (x : ℝ)
  | text (s : String)

/-- `params.get<double>` after the test that the parameter is present.
Models src/contact/Peridigm_ShortRangeForceContactModel.cpp:65-76. -/
def getReal (P : String → Option Value) (k : String) : Outcome ℝ :=
  match P k with
  | some (.real x) => .ok x
  | _ => .fail .invalidArgument

/-- `params.get<string>`.
Models src/contact/Peridigm_UserDefinedTimeDependentShortRangeForceContactModel.cpp:67-69. -/
def getText (P : String → Option Value) (k : String) : Outcome String :=
  match P k with
  | some (.text s) => .ok s
  | _ => .fail .invalidArgument

/-- The text handed to the run-time compiler.
Models src/contact/Peridigm_UserDefinedTimeDependentShortRangeForceContactModel.cpp:110-112. -/
def functionText (s : String) : String :=
  if "value".toList <:+: s.toList then s else "value = " ++ s

/-- `ContactModelFactory::create` with the constructors of the two models.  The text is compiled at every evaluation; as it
never changes it is compiled here.
Models src/contact/Peridigm_ContactModelFactory.cpp:56-74,
src/contact/Peridigm_ShortRangeForceContactModel.cpp:53-87 and
src/contact/Peridigm_UserDefinedTimeDependentShortRangeForceContactModel.cpp:55-102. -/
def createModel (compile : String → Option Body) (P : String → Option Value) : Outcome Model := do
  let name ← getText P "Contact Model"
  if name = "Short Range Force" then
    let radius ← getReal P "Contact Radius"
    let spring ← getReal P "Spring Constant"
    let mu ← getReal P "Friction Coefficient"
    let horizon ← getReal P "Horizon"
    .ok ⟨⟨radius, spring, mu, horizon⟩, .fixed⟩
  else if name = "Time Dependent Short Range Force" then
    let f ← getText P "Friction Coefficient"
    let radius ← getReal P "Contact Radius"
    let spring ← getReal P "Spring Constant"
    let horizon ← getReal P "Horizon"
    .ok ⟨⟨radius, spring, 0, horizon⟩, .timed (compile (functionText f))⟩
  else .fail .runtimeError

/-- `contactParams` after the two `set` calls: the horizon, and friction zero if none is given.
Models src/core/Peridigm_ContactManager.cpp:248-252. -/
def completed (P : String → Option Value) (h : ℝ) : String → Option Value := fun k =>
  if k = "Horizon" then some (.real h)
  else if k = "Friction Coefficient" then
    match P k with
    | some v => some v
    | none => some (.real 0)
  else P k

/-- The contact model of a block: always from the first entry of the "Models" section.  `horizon` is the constant
horizon of the block, `none` if it varies.  The iterator of an empty section is dereferenced.
Models src/core/Peridigm_ContactManager.cpp:236-254. -/
def modelFor (compile : String → Option Body) (models : List (String → Option Value)) (horizon : Option ℝ) :
    Outcome Model :=
  match horizon with
  | none => .fail .terminate
  | some h =>
    match models with
    | [] => .ub
    | P :: _ =>
      if (P "Horizon").isSome then .fail .runtimeError
      else createModel compile (completed P h)

/-- One call of a compiled function.
Models src/contact/Peridigm_UserDefinedTimeDependentShortRangeForceContactModel.cpp:123-140. -/
def callBody (f : Body) (t value : ℝ) : Outcome ℝ :=
  match f t value with
  | some r => .ok r
  | none => .fail .runtimeError

/-- `evaluateParserFriction`: `value` is set to zero before the evaluation at the previous time, and not again before
the evaluation at the current time.
Models src/contact/Peridigm_UserDefinedTimeDependentShortRangeForceContactModel.cpp:108-144 and
src/contact/Peridigm_ShortRangeForceContactModel.cpp:93-95. -/
def evaluateFriction (tc tp : ℝ) (m : Model) : Outcome Model :=
  match m.source with
  | .fixed => .ok m
  | .timed none => .fail .runtimeError
  | .timed (some f) => do
    let previous ← callBody f tp 0
    let current ← callBody f tc previous
    .ok { m with params := { m.params with friction := current } }

/-! ### The contact manager -/

/-- A contact block on one processor: maps, neighborhood and the overlap vectors the contact model reads.
Models src/core/Peridigm_BlockBase.hpp (members) and src/core/Peridigm_ContactBlock.cpp:55-85. -/
structure Local where
  maps : BlockMaps
  data : NeighborhoodData
  vol : Assembly.Part ℝ
  y : Assembly.Part V3
  v : Assembly.Part V3

/-- A contact block on all processors. -/
structure ContactBlock where
  id : Nat
  model : Model
  procs : List Local

/-- The contact manager on all processors: maps and lists, and the contact mothership vectors.
Models src/core/Peridigm_ContactManager.cpp:349-363. -/
structure State where
  parts : List Contact.Part
  block : Assembly.Dist Nat
  vol : Assembly.Dist ℝ
  y : Assembly.Dist V3
  v : Assembly.Dist V3
  blocks : List ContactBlock

/-- A new vector, filled with zeros. -/
def zeros {V : Type} [Zero V] (gids : List Nat) : Assembly.Part V := gids.map fun g => (g, 0)

/-- An import into one processor's part of a vector, mode `Insert`. -/
def receive {V : Type} (src : Assembly.Dist V) (part : Assembly.Part V) : Assembly.Part V :=
  part.map fun e => receiveInsert (src.flatten.lookup e.1) e

/-- An import or export between one-to-one maps, mode `Insert`. -/
def transfer {V : Type} (src t : Assembly.Dist V) : Assembly.Dist V := t.map (receive src)

/-- `neighborhoodPtr` of the contact lists: the positions at which the entries of the points begin.
Models src/core/Peridigm_ContactManager.cpp:848-851. -/
def pointers (l : List Int) : Nat → Nat → Outcome (List Nat)
  | 0, _ => .ok []
  | n + 1, pos => do
    let k ← readAt l pos
    let rest ← pointers l n (pos + 1 + k.toNat)
    .ok (pos :: rest)

/-- The entries of a contact list as ids; an entry -1 has no meaning as an index. -/
def asIds : List Int → Outcome (List Nat)
  | [] => .ok []
  | n :: l => do
    if n < 0 then .ub
    else
      let rest ← asIds l
      .ok (n.toNat :: rest)

/-- The maps and lists from which the contact blocks are made.
Models src/core/Peridigm_ContactManager.cpp:429-435 and 577-584. -/
def contactDisc (c : Contact.Part) : Outcome Disc := do
  let l ← asIds c.contact
  let p ← pointers c.contact c.contactOwned.length 0
  .ok ⟨c.owned, c.overlap, ⟨c.contactOwned, l, p⟩⟩

/-- The maps, neighborhood and empty vectors of contact block `b` on one processor.
Models src/core/Peridigm_ContactBlock.cpp:55-111 (with src/core/Peridigm_BlockBase.cpp:119-285). -/
def buildLocal (c : Contact.Part) (blockIds : List Nat) (b : Nat) : Outcome Local := do
  let d ← contactDisc c
  let m ← createMaps d c.bond blockIds b
  let nd ← blockNeighborhood d m
  .ok ⟨m, nd, zeros m.overlap, zeros m.overlap, zeros m.overlap⟩

/-- One contact block on all processors.
Models src/core/Peridigm_ContactManager.cpp:428-435 and 576-584. -/
def buildBlock (parts : List Contact.Part) (block : Assembly.Dist Nat) (B : ContactBlock) : Outcome ContactBlock := do
  let procs ← Redist.allOk (fun x => buildLocal x.1 (x.2.map Prod.snd) B.id) (parts.zip block)
  .ok { B with procs := procs }

/-- The imports of volume, coordinates and velocity into a contact block.
Models src/core/Peridigm_ContactManager.cpp:439-442 and 588-591. -/
def reload (s : State) (B : ContactBlock) : ContactBlock :=
  { B with procs := B.procs.map fun l =>
      { l with vol := receive s.vol l.vol, y := receive s.y l.y, v := receive s.v l.v } }

/-- Building and loading all contact blocks.
Models src/core/Peridigm_ContactManager.cpp:425-444 and 576-592. -/
def buildBlocks (s : State) : Outcome State := do
  let blocks ← Redist.allOk (buildBlock s.parts s.block) s.blocks
  .ok { s with blocks := blocks.map (reload s) }

/-- What the simulation hands over: block ids, volumes, coordinates and velocities on the simulation's map. -/
structure Mothership where
  block : Assembly.Dist Nat
  vol : Assembly.Dist ℝ
  y : Assembly.Dist V3
  v : Assembly.Dist V3

/-- The contact manager after `initialize`, `loadAllMothershipData` and `initializeContactBlocks`; the contact maps
are at first those of the simulation.
Models src/core/Peridigm_ContactManager.cpp:329-377 and 425-444, called at src/core/Peridigm.cpp:326-339. -/
def start (parts : List Contact.Part) (models : List (Nat × Model)) (M : Mothership) : Outcome State :=
  buildBlocks
    { parts := parts
      block := transfer M.block (parts.map fun c => zeros c.owned)
      vol := transfer M.vol (parts.map fun c => zeros c.owned)
      y := transfer M.y (parts.map fun c => zeros c.owned)
      v := transfer M.v (parts.map fun c => zeros c.owned)
      blocks := models.map fun x => ⟨x.1, x.2, []⟩ }

/-- `evaluateParserFriction` for the model of every contact block.
Models src/core/Peridigm.cpp:353-359 and 1516-1522. -/
def updateFriction (tc tp : ℝ) (s : State) : Outcome State := do
  let blocks ← Redist.allOk (fun (B : ContactBlock) => do
    let m ← evaluateFriction tc tp B.model
    .ok { B with model := m }) s.blocks
  .ok { s with blocks := blocks }

/-- `ContactManager::rebalance`.
Models src/core/Peridigm_ContactManager.cpp:486-603. -/
def rebalance (freq : Int) (step : Nat) (r : Contact.Round) (s : State) : Outcome State :=
  if freq = 0 then .ub
  else if Int.tmod step freq ≠ 0 then .ok s
  else do
    let parts ← Contact.rebalanceContact freq step r s.parts
    buildBlocks
      { s with
        parts := parts
        block := transfer s.block (parts.map fun c => zeros c.owned)
        vol := transfer s.vol (parts.map fun c => zeros c.owned)
        y := transfer s.y (parts.map fun c => zeros c.owned)
        v := transfer s.v (parts.map fun c => zeros c.owned) }

/-- `ContactManager::importData`; the volume is not used.
Models src/core/Peridigm_ContactManager.cpp:446-459. -/
def importData (y v : Assembly.Dist V3) (s : State) : State :=
  let s1 := { s with y := transfer y s.y, v := transfer v s.v }
  { s1 with blocks := s1.blocks.map fun B =>
      { B with procs := B.procs.map fun l => { l with y := receive s1.y l.y, v := receive s1.v l.v } } }

/-- Entry `i` of a vector; all local ids of a contact list are below the length of the overlap vectors. -/
def entry {V : Type} [Zero V] (p : Assembly.Part V) (i : Nat) : V :=
  match p[i]? with
  | some e => e.2
  | none => 0

/-- The contact model's `computeForce` on one contact block and processor: the overlap vector of contact forces.
Models src/core/Peridigm_ContactManager.cpp:868-887,
src/contact/Peridigm_ShortRangeForceContactModel.cpp:97-261 and
src/contact/Peridigm_UserDefinedTimeDependentShortRangeForceContactModel.cpp:146-309 (the same text). -/
def localForce (P : Contact.Params) (l : Local) : Outcome (Assembly.Part V3) := do
  let f ← Contact.computeForce P ⟨entry l.y, entry l.v, entry l.vol⟩ l.data.ownedIDs
    (l.data.list.map fun (n : Nat) => (n : Int))
  .ok (l.maps.overlap.zipIdx.map fun x => (x.1, f x.2))

/-- `ContactManager::evaluateContactForce`: the overlap vectors of contact forces, block by block.
Models src/core/Peridigm_ContactManager.cpp:868-887. -/
def evaluate (s : State) : Outcome (List (Assembly.Dist V3)) :=
  Redist.allOk (fun (B : ContactBlock) => Redist.allOk (localForce B.model.params) B.procs) s.blocks

/-- The processor that owns an id in the contact map. -/
def owner (parts : List Contact.Part) (g : Nat) : Nat := parts.findIdx fun c => decide (g ∈ c.owned)

/-- `ContactManager::exportData` into the vector `target` on the simulation's map.
Models src/core/Peridigm_ContactManager.cpp:461-472. -/
def exportData (s : State) (forces : List (Assembly.Dist V3)) (target : Assembly.Dist V3) : Assembly.Dist V3 :=
  transfer (gather (s.parts.map fun c => zeros c.owned) (forces.map fun d => ⟨some d, fun _ g => owner s.parts g⟩)) target

/-- Evaluation of the contact forces for given coordinates and velocities.
Models src/core/Peridigm.cpp:1376-1377, 1393, 1404-1405 and 1523, 1536, 1559-1560 with
src/core/Peridigm_ModelEvaluator.cpp:127-130. -/
def contactForce (y v target : Assembly.Dist V3) (s : State) : Outcome (State × Assembly.Dist V3) := do
  let s1 := importData y v s
  let forces ← evaluate s1
  .ok (s1, exportData s1 forces target)

/-- What one time step of the simulation supplies: result of load balancing and search (used if the step is one for
it), times, and coordinates and velocities. -/
structure StepInput where
  round : Contact.Round
  timeCurrent : ℝ
  timePrevious : ℝ
  y : Assembly.Dist V3
  v : Assembly.Dist V3

/-- The contact calls in one time step.
Models src/core/Peridigm.cpp:1472-1473, 1515-1524, 1536 and 1559-1560. -/
def step (freq : Int) (n : Nat) (x : StepInput) (target : Assembly.Dist V3) (s : State) : Outcome (State × Assembly.Dist V3) := do
  let s1 ← rebalance freq n x.round s
  let s2 ← updateFriction x.timeCurrent x.timePrevious s1
  contactForce x.y x.v target s2

/-- The contact calls from construction to the forces of the initial configuration: the friction function is evaluated
at time zero.
Models src/core/Peridigm.cpp:321-360, 737-738, 1376-1377, 1393 and 1404-1405. -/
def initial (freq : Int) (parts : List Contact.Part) (models : List (Nat × Model)) (M : Mothership)
    (r : Contact.Round) (y v target : Assembly.Dist V3) : Outcome (State × Assembly.Dist V3) := do
  let s0 ← start parts models M
  let s1 ← updateFriction 0 0 s0
  let s2 ← rebalance freq 0 r s1
  contactForce y v target s2

/-- The time steps from step `n` on: all contact force vectors, in order.
Models src/core/Peridigm.cpp:1448-1595 (the contact calls). -/
def steps (freq : Int) (target : Assembly.Dist V3) : Nat → List StepInput → State → Outcome (List (Assembly.Dist V3))
  | _, [], _ => .ok []
  | n, x :: xs, s => do
    let r ← step freq n x target s
    let rest ← steps freq target (n + 1) xs r.1
    .ok (r.2 :: rest)

/-- A whole explicit run: the contact forces of the initial configuration and of the steps 1, 2, ….
Models src/core/Peridigm.cpp:1376-1595 (the contact calls). -/
def run (freq : Int) (parts : List Contact.Part) (models : List (Nat × Model)) (M : Mothership) (r : Contact.Round)
    (y v : Assembly.Dist V3) (xs : List StepInput) (target : Assembly.Dist V3) : Outcome (List (Assembly.Dist V3)) := do
  let i ← initial freq parts models M r y v target
  let rest ← steps freq target 1 xs i.1
  .ok (i.2 :: rest)

end Verif.Touch
