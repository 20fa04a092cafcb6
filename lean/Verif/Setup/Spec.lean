import Verif.Setup.Model
import Verif.Setup.TimeModel
import Verif.Setup.DeficientModel
import Verif.Neigh.Spec
import Verif.BC.Spec
import Verif.Damage.Spec
import Verif.BC.Props

/-! Specification vocabulary for C149 to C154. -/

noncomputable section

namespace Verif.Setup

open Verif Verif.Params
open scoped Classical

/-- The material with the given name is the one its name says: the text "Multiphysics" is in the name of the material
exactly if the material is a multiphysics material. -/
def WellNamed {M : Type} (ms : String → Option (MaterialList M)) : Prop :=
  ∀ name p, ms name = some p → (contains "Multiphysics" name = true ↔ p.model = some "Multiphysics Elastic")

/-- The claim about the screening: every block of a multiphysics analysis, and no block of another, has a multiphysics
material. -/
def ScreeningSound : Prop :=
  ∀ (rtc : Compiler) (hm : Horizons) (multi : Bool) (probe : ℝ) (ms : String → Option (MaterialList Unit))
    (bs : List (Params.Block BlockParams)) (r : List (Params.Block BlockParams × Material Unit)),
    materials rtc hm multi probe ms bs = .ok r →
      ∀ bm ∈ r, (multi = true ↔ bm.2.model = "Multiphysics Elastic")

/-- The solver asks for a block-diagonal matrix or for none. -/
def AsksForLess (s : SolverList) : Prop := s.preconditioner = some "Block 3x3" ∨ s.preconditioner = some "None"

/-- The claim about the tangents: a solver that solves linear systems and does not itself ask for less works with the full
tangent. -/
def TangentsFit : Prop :=
  ∀ (solvers : List SolverList) (coupling : Bool) (s : SolverList) (sc : Scheme), s ∈ solvers →
    scheme s = .ok sc → sc ≠ .explicit → ¬ AsksForLess s → allocated solvers coupling = .full

/-- A user function that assigns `value` whenever it is executed. -/
def Assigns (f : Formula) : Prop := ∀ t v w, f t v = f t w

/-- The value of a user function at a time. -/
def valueAt (f : Formula) (t : ℝ) : Option ℝ := f t 0

/-- In an evaluation every block that asks for the time-dependent critical stretch has that model, with the value of its
function at the time of the evaluation. -/
def CriticalFollows (I : Input) (e : Evaluation) : Prop :=
  ∀ (k : Nat) (name : String) (p : DamageList), I.names[k]? = some name → name ≠ "None" → I.models name = some p →
    p.model = "Time Dependent Critical Stretch" →
    ∃ m : DamageModel, e.damage[k]? = some (some m) ∧ m.kind = .timeDependent ∧
      m.critical = valueAt p.formula e.time

/-- The friction coefficient in an evaluation is the value of its function at the time of the evaluation. -/
def FrictionFollows (I : Input) (e : Evaluation) : Prop :=
  ∀ f, I.friction = some f → e.friction = valueAt f e.time

/-- All user functions of the input assign their value. -/
def AllAssign (I : Input) : Prop :=
  (∀ name p, I.models name = some p → Assigns p.formula) ∧ ∀ f, I.friction = some f → Assigns f

/-- The claim about time-dependent values. -/
def ValuesFollow : Prop :=
  ∀ (I : Input) (solvers : List SolverRun) (s : Session), AllAssign I → analysis I solvers = .ok s →
    ∀ e ∈ s.log, CriticalFollows I e ∧ FrictionFollows I e

/-- The input names only damage models that exist, and its functions have values at all times. -/
def Complete (I : Input) : Prop :=
  (∀ name ∈ I.names, name ≠ "None" → ∃ p k, I.models name = some p ∧ damageKind p.model = .ok k ∧
    ∀ t v, (p.formula t v).isSome) ∧ ∀ f, I.friction = some f → ∀ t v, (f t v).isSome

/-- Some block has the interface-aware damage model. -/
def UsesInterfaceAware (I : Input) : Prop :=
  ∃ name ∈ I.names, name ≠ "None" ∧ ∃ p, I.models name = some p ∧ p.model = "Interface Aware"

/-- The claim about the usability of damage models. -/
def DamageUsable : Prop :=
  ∀ (I : Input) (solvers : List SolverRun), Complete I → ∃ s, analysis I solvers = .ok s

/-- The sum of the damage of the bonds of the point with position `p`, that is the number of its broken bonds when bonds
are whole (0) or broken (1). -/
def brokenSum (nbs : List (List Nat)) (d : Nat → ℝ) (p n : Nat) : ℝ :=
  ((List.range n).map fun t => d (Mech.bondPos nbs p t)).sum

/-- The claim about rank deficient points, for one block of a mesh on one processor: after an evaluation that starts with
an empty set, the entries of the residual of a point of the block are set to zero if at most two of its bonds are whole, and
left alone otherwise. -/
def DeficientTakenOut : Prop :=
  ∀ (T : List Neigh.Pt) (b : Nat) (blk : Neigh.Block), (T.map Neigh.Pt.gid).Nodup → Neigh.meshBlock T b = .ok blk →
    ∀ (nbs : List (List Nat)), blk.data.list = Neigh.encode nbs → nbs.length = blk.data.ownedIDs.length →
    ∀ (crit : ℝ) (crits : Nat → ℝ) (I : Damage.Input) (s s' : Damage.State) (sets' : BC.NodeSets),
    interfaceWithSets crit crits blk.data.ownedIDs blk.data.list I (addPlaceholder true fun _ => none) s =
      .ok (s', sets') →
    ∀ (v v' : List ℝ), v.length = 3 * T.length →
    BC.insertZeros BC.dispOnly (BC.tangentGids 3 (T.map Neigh.Pt.gid)) sets' deficientConditions v = .ok v' →
    ∀ (p : Nat) (g : Nat) (ns : List Nat), blk.maps.owned[p]? = some g → nbs[p]? = some ns →
    ∀ c < 3, v'[3 * (T.map Neigh.Pt.gid).idxOf g + c]? =
      if brokenSum nbs s'.bondNP1 p ns.length ≥ (ns.length : ℝ) - 2 then some 0
      else v[3 * (T.map Neigh.Pt.gid).idxOf g + c]?

end Verif.Setup
