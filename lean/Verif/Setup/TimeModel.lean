import Verif.Setup.Model
import Mathlib.Tactic.Linarith

/-!
# Model of the damage and contact models in the course of an analysis

Models the creation of the damage models in the constructor `Peridigm::Peridigm` and, again, in every step of
`Peridigm::executeExplicit`, `evaluateParserDmg`, `evaluateParserFriction`, and the check of the boundary condition
manager in `InterfaceAwareDamageModel::computeDamage`.

Simplifications: an analysis is the sequence of its evaluations of the force model (`evalModel`), each with the time it
is made for and the damage models then in place; forces and positions are left out.  Only one time-dependent friction
coefficient is kept (the contact blocks are treated alike).  A function written by the user gets the time and the value
that the variable `value` holds before, and gives the value it holds after, or nothing if it cannot be executed; its text
is assumed to compile.
-/

noncomputable section

namespace Verif.Setup

open Verif
open scoped Classical

/-- A compiled user function: time and old content of `value` to new content. -/
abbrev Formula := ℝ → ℝ → Option ℝ

/-- `evaluateParserDmg` and `evaluateParserFriction`: the value of the member, that is `currentValue`.  `value` is set to
zero once; the function is executed for the previous and then for the current time.
Models src/damage/Peridigm_UserDefinedTimeDependentCriticalStretchDamageModel.cpp:94-133 and
src/contact/Peridigm_UserDefinedTimeDependentShortRangeForceContactModel.cpp:107-145. -/
def evaluateValue (f : Formula) (timeCurrent timePrevious : ℝ) : Outcome ℝ :=
  match f timePrevious 0 with
  | none => .fail .runtimeError
  | some previousValue => match f timeCurrent previousValue with
    | none => .fail .runtimeError
    | some currentValue => .ok currentValue

/-- The damage models.
Models src/damage/Peridigm_DamageModelFactory.cpp:66-77. -/
inductive DamageKind where
  | criticalStretch | interfaceAware | timeDependent | initialDamage | johnsonCook | vonMises
  deriving DecidableEq

/-- `DamageModelFactory::create`: the name to the model.
Models src/damage/Peridigm_DamageModelFactory.cpp:60-87. -/
def damageKind (name : String) : Outcome DamageKind :=
  if name = "Critical Stretch" then .ok .criticalStretch
  else if name = "Interface Aware" then .ok .interfaceAware
  else if name = "Time Dependent Critical Stretch" then .ok .timeDependent
  else if name = "Initial Damage" then .ok .initialDamage
  else if name = "Johnson Cook" then .ok .johnsonCook
  else if name = "Von Mises Stress" then .ok .vonMises
  else .fail .runtimeError

/-- One entry of the "Damage Models" section: the model, the critical stretch (a number or, for the time-dependent model, a
function; the other one is not read). -/
structure DamageList where
  model : String
  critical : ℝ
  formula : Formula

/-- A damage model object: the model, whether `m_bcManager` is set, and `m_criticalStretch`, `none` while it has no
value. -/
structure DamageModel where
  kind : DamageKind
  manager : Bool
  critical : Option ℝ

/-- Creating an object: the constructors of `CriticalStretchDamageModel` and `InterfaceAwareDamageModel` read the critical
stretch, that of the time-dependent model leaves it without a value; no constructor sets the manager.
Models src/damage/Peridigm_DamageModelFactory.cpp:60-87, Peridigm_InterfaceAwareDamageModel.cpp:52-55 and
Peridigm_UserDefinedTimeDependentCriticalStretchDamageModel.cpp:52-62. -/
def createDamage (p : DamageList) : Outcome DamageModel := do
  let k ← damageKind p.model
  .ok ⟨k, false, if k = .timeDependent then none else some p.critical⟩

/-- The value of the time-dependent model is set; other models are left alone.
Models src/core/Peridigm.cpp:446-449, 1459-1462. -/
def evaluateDamage (p : DamageList) (tc tp : ℝ) (m : DamageModel) : Outcome DamageModel :=
  if m.kind = .timeDependent then do
    let c ← evaluateValue p.formula tc tp
    .ok { m with critical := some c }
  else .ok m

/-- The damage model of a block as the constructor of `Peridigm` makes it, `none` for a block without; `ds` is the
"Damage Models" section.
Models src/core/Peridigm.cpp:434-451. -/
def setupDamage (ds : String → Option DamageList) (name : String) : Outcome (Option DamageModel) :=
  if name = "None" then .ok none
  else match ds name with
    | none => .fail .runtimeError
    | some p => do
      let m ← createDamage p
      let m' ← evaluateDamage p 0 0 { m with manager := decide (m.kind = .interfaceAware) }
      .ok (some m')

/-- The damage model of a block as a step of `executeExplicit` makes it: the manager is not passed on.
Models src/core/Peridigm.cpp:1452-1465. -/
def stepDamage (ds : String → Option DamageList) (tc tp : ℝ) (name : String) : Outcome (Option DamageModel) :=
  if name = "None" then .ok none
  else match ds name with
    | none => .fail .runtimeError
    | some p => do
      let m ← createDamage p
      let m' ← evaluateDamage p tc tp m
      .ok (some m')

/-- A function applied to all blocks. -/
def forBlocks {A B : Type} (f : A → Outcome B) : List A → Outcome (List B)
  | [] => .ok []
  | a :: as => do
    let b ← f a
    let bs ← forBlocks f as
    .ok (b :: bs)

/-- One evaluation of the force model: its time, the damage models of the blocks and the time-dependent friction
coefficient in place. -/
structure Evaluation where
  time : ℝ
  damage : List (Option DamageModel)
  friction : Option ℝ

/-- What an evaluation needs of a damage model: the interface-aware model throws without the manager, the critical stretch
must have a value.
Models src/damage/Peridigm_InterfaceAwareDamageModel.cpp:180; the others need nothing. -/
def usable (m : Option DamageModel) : Outcome Unit :=
  match m with
  | none => .ok ()
  | some m => if m.kind = .interfaceAware ∧ m.manager = false then .fail .runtimeError
    else if m.critical = none then .ub
    else .ok ()

/-- `evalModel` as far as it concerns the models in place.
Models src/core/Peridigm_ModelEvaluator.cpp:72-87. -/
def evaluateModels (e : Evaluation) : Outcome Unit := do
  let _ ← forBlocks usable e.damage
  .ok ()

/-- The analysis between solvers: the damage models in place and the friction coefficient; `log` the evaluations made, in
order. -/
structure Session where
  damage : List (Option DamageModel)
  friction : Option ℝ
  log : List Evaluation

/-- The input that matters: the damage models of the blocks by name, the "Damage Models" section and the function for the
friction coefficient, if the analysis has such a contact model. -/
structure Input where
  names : List String
  models : String → Option DamageList
  friction : Option Formula

/-- The friction coefficient for a time.
Models src/core/Peridigm.cpp:353-359, 1514-1522. -/
def frictionAt (I : Input) (tc tp : ℝ) : Outcome (Option ℝ) :=
  match I.friction with
  | none => .ok none
  | some f => do
    let v ← evaluateValue f tc tp
    .ok (some v)

/-- After the constructor of `Peridigm`.
Models src/core/Peridigm.cpp:348-359, 387-451. -/
def start (I : Input) : Outcome Session := do
  let fr ← frictionAt I 0 0
  let dm ← forBlocks (setupDamage I.models) I.names
  .ok ⟨dm, fr, []⟩

/-- An evaluation with the models in place. -/
def evaluate (s : Session) (t : ℝ) : Outcome Session := do
  evaluateModels ⟨t, s.damage, s.friction⟩
  .ok { s with log := s.log ++ [⟨t, s.damage, s.friction⟩] }

/-- One step of `executeExplicit`.
Models src/core/Peridigm.cpp:1447-1536. -/
def explicitStep (I : Input) (s : Session) (tc tp : ℝ) : Outcome Session := do
  let dm ← forBlocks (stepDamage I.models tc tp) I.names
  let fr ← frictionAt I tc tp
  evaluate { s with damage := dm, friction := fr } tc

/-- Steps `step`, `step + 1`, … , `k` of them.
Models src/core/Peridigm.cpp:1447-1450: `timeCurrent = timeInitial + step*dt`. -/
def explicitSteps (I : Input) (t0 dt : ℝ) : Nat → Nat → ℝ → Session → Outcome Session
  | 0, _, _, s => .ok s
  | k + 1, step, tp, s => do
    let s' ← explicitStep I s (t0 + step * dt) tp
    explicitSteps I t0 dt k (step + 1) (t0 + step * dt) s'

/-- `executeExplicit`: the initial evaluation, unless the analysis continues from restart files, and `nsteps` steps.
Models src/core/Peridigm.cpp:1382-1395, 1447-1536. -/
def runExplicit (I : Input) (restarted : Bool) (t0 dt : ℝ) (nsteps : Nat) (s : Session) : Outcome Session := do
  let s' ← if restarted then .ok s else evaluate s t0
  explicitSteps I t0 dt nsteps 1 t0 s'

/-- The other solvers, whatever evaluations they make at whatever times: none of them touches damage models or friction.
Models the calls of `evalModel` outside src/core/Peridigm.cpp:1288-1835. -/
def runImplicit (times : List ℝ) (s : Session) : Outcome Session := times.foldlM evaluate s

/-- A solver of the analysis. -/
inductive SolverRun where
  | explicit (restarted : Bool) (t0 dt : ℝ) (nsteps : Nat)
  | implicit (times : List ℝ)

/-- One solver.
Models src/core/Peridigm.cpp:1257-1276. -/
def runSolver (I : Input) (s : Session) : SolverRun → Outcome Session
  | .explicit r t0 dt n => runExplicit I r t0 dt n s
  | .implicit ts => runImplicit ts s

/-- `executeSolvers` after the set-up.
Models src/core/Peridigm.cpp:1278-1285. -/
def analysis (I : Input) (solvers : List SolverRun) : Outcome Session := do
  let s ← start I
  solvers.foldlM (runSolver I) s

end Verif.Setup
