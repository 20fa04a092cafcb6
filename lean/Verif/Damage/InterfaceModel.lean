import Verif.Damage.Model
import Verif.Assembly.Model

/-! # The field of critical stretches of the interface-aware damage model -/

noncomputable section

namespace Verif.Damage

open Verif Verif.Mech Verif.Neigh Verif.Assembly
open scoped Classical

/-- A block as the set-up of the field `Critical_Stretch` sees it: the critical stretch of its interface-aware damage
model (`none` if it has another damage model or none, so that its data manager lacks the field), and for each processor
the global ids of its owned points and of all its points including ghosts (the overlap map); `pick` as in
`Verif.Assembly.BlockField`. -/
structure BlockSetup where
  crit : Option ℝ
  parts : List (List Nat × List Nat)
  pick : Nat → Nat → Nat

/-- `InterfaceAwareDamageModel::initialize`, Peridigm_InterfaceAwareDamageModel.cpp:98-110, on one processor: the field
is zero when it is allocated (Epetra's constructors zero the values) and gets the block's value for the owned
points. -/
def initialPart (crit : ℝ) (p : List Nat × List Nat) : Assembly.Part ℝ :=
  p.2.map fun g => (g, if g ∈ p.1 then crit else 0)

/-- The field of one block on all processors. -/
def initialField (b : BlockSetup) : BlockField ℝ :=
  ⟨b.crit.map fun c => b.parts.map (initialPart c), b.pick⟩

/-- The part of `Peridigm::Peridigm` that prepares this field, src/core/Peridigm.cpp:696-699 and 708-727 with
Peridigm_InterfaceAwareDamageModel.hpp:78-82: the damage models are initialised; if a block asks for the field to be
synchronised, every block must have it (`DataManagerSynchronizer::checkFieldValidity`,
src/core/Peridigm_Block.cpp:158-191) and it is synchronised.  The checks of the kind and length of the field pass.
Fields of other models are left out; they do not touch this one. -/
def prepare (global : Assembly.Dist ℝ) (blocks : List BlockSetup) : Outcome (List (BlockField ℝ)) :=
  if ∃ b ∈ blocks, b.crit ≠ none then
    if ∃ b ∈ blocks, b.crit = none then .fail .terminate
    else .ok (synchronize global (blocks.map initialField))
  else .ok (blocks.map initialField)

/-- The array of one block on one processor by local id.  Reading beyond it would be undefined; the theorems speak of
local ids within it. -/
def readField (part : Assembly.Part ℝ) : Nat → ℝ := fun k => (part[k]?).elim 0 Prod.snd

/-- `InterfaceAwareDamageModel::computeDamage` for one block on one processor, with the array of critical stretches
`part`: nothing writes the field after the set-up. -/
def interfaceBlock (crit : ℝ) (part : Assembly.Part ℝ) (ownedIDs l : List Nat) (I : Input) (s : State × List Nat) :
    Outcome (State × List Nat) :=
  interfaceAware crit (readField part) ownedIDs l I s

end Verif.Damage
