import Verif.Damage.Model
import Verif.BC.Model

/-!
# Model of the node set of rank deficient points

Models how `InterfaceAwareDamageModel::computeDamage` uses the node set `RANK_DEFICIENT_NODES` and
`BoundaryAndInitialConditionManager::createRankDeficientBC`.
-/

noncomputable section

namespace Verif.Setup

open Verif Verif.Damage
open scoped Classical

/-- The name of the node set. -/
def deficientName : String := "RANK_DEFICIENT_NODES"

/-- The node sets with the empty placeholder, if it is to be created.
Models src/core/Peridigm_BoundaryAndInitialConditionManager.cpp:270-272. -/
def addPlaceholder (create : Bool) (sets : BC.NodeSets) : BC.NodeSets :=
  if create then Function.update sets deficientName (some []) else sets

/-- The three conditions of `createRankDeficientBC`, one for each direction.
Models src/core/Peridigm_BoundaryAndInitialConditionManager.cpp:185-203. -/
def deficientCondition (k : Nat) : BC.Condition where
  type := .prescribedDisplacement
  nodeSet := deficientName
  coord := k
  value := fun _ _ _ _ => some 0
  target := .deltaU
  kind := .increment 1 0 false

@[inherit_doc deficientCondition]
def deficientConditions : List BC.Condition := [deficientCondition 0, deficientCondition 1, deficientCondition 2]

/-- `InterfaceAwareDamageModel::computeDamage` with the node sets of the boundary condition manager.  `ownedIDs` and `l`
hold the block's local ids, and these are what is appended to the node set.  Without the set the first rank deficient point
ends the run; the evaluation with an empty set finds out whether there is one.
Models src/damage/Peridigm_InterfaceAwareDamageModel.cpp:116-226. -/
def interfaceWithSets (crit : ℝ) (crits : Nat → ℝ) (ownedIDs l : List Nat) (I : Damage.Input) (sets : BC.NodeSets)
    (s : State) : Outcome (State × BC.NodeSets) :=
  match sets deficientName with
  | some set => do
    let r ← interfaceAware crit crits ownedIDs l I (s, set)
    .ok (r.1, Function.update sets deficientName (some r.2))
  | none => do
    let r ← interfaceAware crit crits ownedIDs l I (s, [])
    if r.2 = [] then .ok (r.1, sets) else .fail .runtimeError

end Verif.Setup
