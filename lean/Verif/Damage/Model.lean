import Verif.Mech.Model
import Verif.Filter.Model

/-!
# Model of the damage models

Models /repo/src/damage/Peridigm_CriticalStretchDamageModel.cpp,
Peridigm_UserDefinedTimeDependentCriticalStretchDamageModel.cpp, Peridigm_InterfaceAwareDamageModel.cpp,
Peridigm_InitialDamageModel.cpp, Peridigm_VonMisesStressDamageModel.cpp and
Peridigm_JohnsonCookDamageModel.cpp.

Numbers are exact reals; a division by zero is reported as `ub`.  Arrays of point data are functions from
local ids, arrays of bond data functions from bond positions, as in Verif.Mech.Model.  The damage and bond
damage fields are two-step fields: `updateState` exchanges the arrays of the two steps without copying
anything (property C03).
-/

noncomputable section

namespace Verif.Damage

open Verif Verif.Mech Verif.Neigh
open scoped Classical

/-- The bond damage and damage fields at the steps N and NP1,
Peridigm_CriticalStretchDamageModel.cpp:66-67. -/
structure State where
  bondN : Nat → ℝ
  bondNP1 : Nat → ℝ
  pointN : Nat → ℝ
  pointNP1 : Nat → ℝ

/-- `DataManager::updateState` for these fields, src/core/Peridigm_DataManager.hpp:159-177. -/
def State.update (s : State) : State := ⟨s.bondNP1, s.bondN, s.pointNP1, s.pointN⟩

/-- What a critical-stretch model reads in one evaluation: coordinates, and if thermal strains are applied
the expansion coefficient with the temperature changes. -/
structure Input where
  x : Nat → V3
  y : Nat → V3
  thermal : Option (ℝ × (Nat → ℝ))

/-- `relativeExtension` of a bond, Peridigm_CriticalStretchDamageModel.cpp:147-155. -/
def relativeExtension (I : Input) (nodeId neighborID : Nat) : Outcome ℝ :=
  let initialDistance := len (I.x neighborID - I.x nodeId)
  let currentDistance := len (I.y neighborID - I.y nodeId) -
    (match I.thermal with
     | none => 0
     | some (alpha, dT) => alpha * dT nodeId * initialDistance)
  if initialDistance = 0 then .ub
  else .ok ((currentDistance - initialDistance) / initialDistance)

/-- `trialDamage`, Peridigm_CriticalStretchDamageModel.cpp:156-158. -/
def trialDamage (crit relativeExtension : ℝ) : ℝ := if relativeExtension > crit then 1 else 0

/-- One iteration of the bond loop, Peridigm_CriticalStretchDamageModel.cpp:137-162. -/
def breakBond (crit : ℝ) (I : Input) (ownedIDs : List Nat) (d : Nat → ℝ) (b : Bond) : Outcome (Nat → ℝ) :=
  match readAt ownedIDs b.i with
  | .ok nodeId =>
    match relativeExtension I nodeId b.j with
    | .ok e =>
      if trialDamage crit e > d b.b then .ok (Function.update d b.b (trialDamage crit e)) else .ok d
    | .fail f => .fail f
    | .ub => .ub
  | .fail f => .fail f
  | .ub => .ub

/-- The bond loop, Peridigm_CriticalStretchDamageModel.cpp:136-164. -/
def breakLoop (crit : ℝ) (I : Input) (ownedIDs : List Nat) : List Bond → (Nat → ℝ) → Outcome (Nat → ℝ)
  | [], d => .ok d
  | b :: bs, d =>
    match breakBond crit I ownedIDs d b with
    | .ok d' => breakLoop crit I ownedIDs bs d'
    | .fail f => .fail f
    | .ub => .ub

/-- `totalDamage` of one point before the division, Peridigm_CriticalStretchDamageModel.cpp:174-177. -/
def bondSum (d : Nat → ℝ) : Nat → Nat → ℝ → ℝ
  | _, 0, total => total
  | bondIndex, k + 1, total => bondSum d (bondIndex + 1) k (total + d bondIndex)

/-- The point loop, Peridigm_CriticalStretchDamageModel.cpp:168-183: `ids` are the remaining owned ids. -/
def pointLoop (l : List Nat) (d : Nat → ℝ) : List Nat → Nat → Nat → (Nat → ℝ) → Outcome (Nat → ℝ)
  | [], _, _, damage => .ok damage
  | nodeId :: ids, pos, bondIndex, damage =>
    match readAt l pos with
    | .ok k =>
      let totalDamage := if k > 0 then bondSum d bondIndex k 0 / k else 0
      pointLoop l d ids (pos + 1 + k) (bondIndex + k) (Function.update damage nodeId totalDamage)
    | .fail f => .fail f
    | .ub => .ub

/-- The two loops shared by the critical-stretch models, starting from the bond damage `d`. -/
def damageLoops (crit : ℝ) (I : Input) (ownedIDs l : List Nat) (d : Nat → ℝ) (s : State) :
    Outcome State :=
  match visitedBonds ownedIDs.length l with
  | .ok bs =>
    match breakLoop crit I ownedIDs bs d with
    | .ok d' =>
      match pointLoop l d' ownedIDs 0 0 s.pointNP1 with
      | .ok p => .ok { s with bondNP1 := d', pointNP1 := p }
      | .fail f => .fail f
      | .ub => .ub
    | .fail f => .fail f
    | .ub => .ub
  | .fail f => .fail f
  | .ub => .ub

/-- `CriticalStretchDamageModel::computeDamage`, Peridigm_CriticalStretchDamageModel.cpp:108-184. Line 131
copies the values of step N to step NP1. -/
def criticalStretch (crit : ℝ) (ownedIDs l : List Nat) (I : Input) (s : State) : Outcome State :=
  damageLoops crit I ownedIDs l s.bondN s

/-- `UserDefinedTimeDependentCriticalStretchDamageModel::computeDamage`,
Peridigm_UserDefinedTimeDependentCriticalStretchDamageModel.cpp:162-241. Lines 187-188 assign one temporary
smart pointer to another; no values are copied, and the loops continue with what step NP1 held.  `crit` is
the value of the user's function at the current time (131). -/
def userDefined (crit : ℝ) (ownedIDs l : List Nat) (I : Input) (s : State) : Outcome State :=
  damageLoops crit I ownedIDs l s.bondNP1 s

/-- `initialize`, Peridigm_CriticalStretchDamageModel.cpp:83-106, the same in
Peridigm_UserDefinedTimeDependentCriticalStretchDamageModel.cpp:135-160: zeros at step NP1, for the bonds
of the owned points and the owned points. -/
def zeroNP1 (ownedIDs l : List Nat) (s : State) : Outcome State :=
  match visitedBonds ownedIDs.length l with
  | .ok bs => .ok { s with
      bondNP1 := fun k => if k ∈ bs.map (·.b) then 0 else s.bondNP1 k
      pointNP1 := fun k => if k ∈ ownedIDs then 0 else s.pointNP1 k }
  | .fail f => .fail f
  | .ub => .ub

/-- The evaluations of one load or time step followed by `updateState`: the damage model is evaluated once
or (in the implicit solvers) several times per step, src/core/Peridigm_ModelEvaluator.cpp:72-87. -/
def runStep {I : Type} (eval : I → State → Outcome State) : List I → State → Outcome State
  | [], s => .ok s.update
  | i :: is, s =>
    match eval i s with
    | .ok s' => runStep eval is s'
    | .fail f => .fail f
    | .ub => .ub

/-- A sequence of steps. -/
def run {I : Type} (eval : I → State → Outcome State) : List (List I) → State → Outcome State
  | [], s => .ok s
  | st :: hist, s =>
    match runStep eval st s with
    | .ok s' => run eval hist s'
    | .fail f => .fail f
    | .ub => .ub

/-! ### The interface-aware model -/

/-- One iteration of the bond loop, Peridigm_InterfaceAwareDamageModel.cpp:141-176: `crits` is the field
`Critical_Stretch`. -/
def interfaceBond (crit : ℝ) (crits : Nat → ℝ) (I : Input) (ownedIDs : List Nat) (d : Nat → ℝ) (b : Bond) :
    Outcome (Nat → ℝ) :=
  if d b.b ≠ 0 ∨ crits b.j = 0 then .ok d
  else breakBond (if crits b.j < crit then crits b.j else crit) I ownedIDs d b

/-- The bond loop, Peridigm_InterfaceAwareDamageModel.cpp:140-178. -/
def interfaceLoop (crit : ℝ) (crits : Nat → ℝ) (I : Input) (ownedIDs : List Nat) :
    List Bond → (Nat → ℝ) → Outcome (Nat → ℝ)
  | [], d => .ok d
  | b :: bs, d =>
    match interfaceBond crit crits I ownedIDs d b with
    | .ok d' => interfaceLoop crit crits I ownedIDs bs d'
    | .fail f => .fail f
    | .ub => .ub

/-- Break the bonds at the positions from `bondIndex` on, Peridigm_InterfaceAwareDamageModel.cpp:211-214. -/
def breakAll (d : Nat → ℝ) (bondIndex k : Nat) : Nat → ℝ :=
  fun b => if bondIndex ≤ b ∧ b < bondIndex + k then 1 else d b

/-- The point loop, Peridigm_InterfaceAwareDamageModel.cpp:184-225. `set` is the node set
`RANK_DEFICIENT_NODES`; a point not yet in it that has lost all but two bonds is added, and its bonds are
broken.  The comparison of a real with `numNeighbors-2` is made with possibly negative integers. -/
def interfacePoints (l : List Nat) : List Nat → Nat → Nat → (Nat → ℝ) → (Nat → ℝ) → List Nat →
    Outcome ((Nat → ℝ) × (Nat → ℝ) × List Nat)
  | [], _, _, d, damage, set => .ok (d, damage, set)
  | nodeId :: ids, pos, bondIndex, d, damage, set =>
    match readAt l pos with
    | .ok k =>
      let total := bondSum d bondIndex k 0
      if total ≥ (k : ℝ) - 2 ∧ nodeId ∉ set then
        interfacePoints l ids (pos + 1 + k) (bondIndex + k) (breakAll d bondIndex k)
          (Function.update damage nodeId (if k > 0 then (k : ℝ) / k else 0)) (set ++ [nodeId])
      else
        interfacePoints l ids (pos + 1 + k) (bondIndex + k) d
          (Function.update damage nodeId (if k > 0 then total / k else 0)) set
    | .fail f => .fail f
    | .ub => .ub

/-- `InterfaceAwareDamageModel::computeDamage`, Peridigm_InterfaceAwareDamageModel.cpp:116-226. Only the
arrays of step NP1 are used.  The node set is created by the boundary condition manager before (180-181,
198). -/
def interfaceAware (crit : ℝ) (crits : Nat → ℝ) (ownedIDs l : List Nat) (I : Input) (s : State × List Nat) :
    Outcome (State × List Nat) :=
  match visitedBonds ownedIDs.length l with
  | .ok bs =>
    match interfaceLoop crit crits I ownedIDs bs s.1.bondNP1 with
    | .ok d =>
      match interfacePoints l ownedIDs 0 0 d s.1.pointNP1 s.2 with
      | .ok (d', p, set) => .ok ({ s.1 with bondNP1 := d', pointNP1 := p }, set)
      | .fail f => .fail f
      | .ub => .ub
    | .fail f => .fail f
    | .ub => .ub
  | .fail f => .fail f
  | .ub => .ub

/-- The evaluations of one step and `updateState`; the node set is not a field and is kept. -/
def interfaceStep (crit : ℝ) (crits : Nat → ℝ) (ownedIDs l : List Nat) :
    List Input → State × List Nat → Outcome (State × List Nat)
  | [], s => .ok (s.1.update, s.2)
  | i :: is, s =>
    match interfaceAware crit crits ownedIDs l i s with
    | .ok s' => interfaceStep crit crits ownedIDs l is s'
    | .fail f => .fail f
    | .ub => .ub

/-! ### The initial damage model -/

/-- The loop over the filters for one bond, Peridigm_InitialDamageModel.cpp:141-147. The list of candidates
is the single entry 0, and no point has the local id -1 (any id other than 0 stands for it). -/
def initialBond (fs : List Filter.BondFilter) (pt nb : V3) : Outcome ℝ :=
  match fs with
  | [] => .ok 0
  | f :: fs =>
    match f.filterBonds pt 1 (fun _ => nb) [0] [false], initialBond fs pt nb with
    | .ok [true], .ok _ => .ok 1
    | .ok [false], .ok r => .ok r
    | .fail e, _ => .fail e
    | _, .fail e => .fail e
    | _, _ => .ub

/-- The bond loop of `initialize`, Peridigm_InitialDamageModel.cpp:132-150. -/
def initialLoop (fs : List Filter.BondFilter) (x : Nat → V3) (ownedIDs : List Nat) :
    List Bond → (Nat → ℝ) → Outcome (Nat → ℝ)
  | [], d => .ok d
  | b :: bs, d =>
    match readAt ownedIDs b.i with
    | .ok nodeId =>
      match initialBond fs (x nodeId) (x b.j) with
      | .ok v => initialLoop fs x ownedIDs bs (Function.update d b.b v)
      | .fail f => .fail f
      | .ub => .ub
    | .fail f => .fail f
    | .ub => .ub

/-- `InitialDamageModel::initialize`, Peridigm_InitialDamageModel.cpp:118-171. Line 161 copies the bond
damage of all bonds of owned points to step N. -/
def initialDamage (fs : List Filter.BondFilter) (x : Nat → V3) (ownedIDs l : List Nat) (s : State) :
    Outcome State :=
  match visitedBonds ownedIDs.length l with
  | .ok bs =>
    match initialLoop fs x ownedIDs bs s.bondNP1 with
    | .ok d =>
      match pointLoop l d ownedIDs 0 0 s.pointNP1, pointLoop l d ownedIDs 0 0 s.pointN with
      | .ok p, .ok p' => .ok
          { bondN := fun k => if k ∈ bs.map (·.b) then d k else s.bondN k
            bondNP1 := d
            pointN := p'
            pointNP1 := p }
      | .fail f, _ => .fail f
      | _, .fail f => .fail f
      | _, _ => .ub
    | .fail f => .fail f
    | .ub => .ub
  | .fail f => .fail f
  | .ub => .ub

/-- `InitialDamageModel::computeDamage`, Peridigm_InitialDamageModel.cpp:173-179. -/
def initialCompute (_ : Unit) (s : State) : Outcome State := .ok s

/-! ### The von Mises stress model -/

/-- Parameters of `VonMisesStressDamageModel`, Peridigm_VonMisesStressDamageModel.cpp:56-82. -/
structure VMParams where
  stress : ℝ
  threshold : ℝ
  critical : ℝ
  neglect : ℝ

/-- The check in the constructor, Peridigm_VonMisesStressDamageModel.cpp:79. -/
def VMParams.construct (P : VMParams) : Outcome VMParams :=
  if P.critical < P.threshold then .fail .terminate else .ok P

/-- What the correspondence damage models read besides their own variables: positions, volumes, Jacobian
determinants, weighted volumes, influence function and horizons. -/
structure Geo where
  y : Nat → V3
  v : Nat → ℝ
  jac : Nat → ℝ
  m : Nat → ℝ
  omega : ℝ → ℝ → ℝ
  horizon : Nat → ℝ

/-- `omega / *undamagedWeightedVolume * neighborVolume`, Peridigm_VonMisesStressDamageModel.cpp:193-205. -/
def Geo.weight (G : Geo) (b : Bond) : Outcome ℝ :=
  if G.m b.i = 0 then .ub
  else .ok (G.omega (len (G.y b.j - G.y b.i)) (G.horizon b.i) / G.m b.i * (G.jac b.j * G.v b.j))

/-- `tempDmg`, Peridigm_VonMisesStressDamageModel.cpp:183-188. -/
def vmTemp (P : VMParams) (stress : ℝ) : Outcome ℝ :=
  if P.stress = 0 then .ub
  else if stress / P.stress ≥ P.critical then .ok 1
  else if stress / P.stress ≤ P.threshold then .ok 0
  else if P.critical - P.threshold = 0 then .ub
  else .ok ((stress / P.stress - P.threshold) / (P.critical - P.threshold))

/-- The bond loop with the bond damage and the broken bond volumes,
Peridigm_VonMisesStressDamageModel.cpp:178-206. -/
def vmLoop (P : VMParams) (G : Geo) (stress : Nat → ℝ) : List Bond → (Nat → ℝ) → (Nat → ℝ) →
    Outcome ((Nat → ℝ) × (Nat → ℝ))
  | [], d, avg => .ok (d, avg)
  | b :: bs, d, avg =>
    match vmTemp P (stress b.b), G.weight b with
    | .ok t, .ok w =>
      let nd := if d b.b < t then t else d b.b
      vmLoop P G stress bs (Function.update d b.b nd) (Function.update avg b.i (avg b.i + nd * w))
    | .fail f, _ => .fail f
    | _, .fail f => .fail f
    | _, _ => .ub

/-- The fields of the correspondence damage models: bond damage at both steps, and at step NP1 the broken
bond volume and the flag of neglected points. -/
structure VMState where
  bondN : Nat → ℝ
  bondNP1 : Nat → ℝ
  broken : Nat → ℝ
  flag : Nat → ℝ

/-- `VonMisesStressDamageModel::computeDamage`, Peridigm_VonMisesStressDamageModel.cpp:122-211. The broken
bond volume of each owned point is set to zero when its turn comes (173); as the loop of a point changes
only that entry, the model sets all of them at the beginning.  The flag of all points is -1 before (160). -/
def vonMises (P : VMParams) (n : Nat) (l : List Nat) (I : Geo × (Nat → ℝ)) (s : VMState) :
    Outcome VMState :=
  match visitedBonds n l with
  | .ok bs =>
    match vmLoop P I.1 I.2 bs s.bondN (fun p => if p < n then 0 else s.broken p) with
    | .ok (d, avg) => .ok { s with
        bondNP1 := d
        broken := avg
        flag := fun p => if p < n ∧ avg p > P.neglect then 1 else -1 }
    | .fail f => .fail f
    | .ub => .ub
  | .fail f => .fail f
  | .ub => .ub

/-- `updateState` for the bond damage. The other arrays are rewritten in every evaluation. -/
def VMState.update (s : VMState) : VMState := { s with bondN := s.bondNP1, bondNP1 := s.bondN }

/-- The evaluations of one step and `updateState`. -/
def vmStep (P : VMParams) (n : Nat) (l : List Nat) : List (Geo × (Nat → ℝ)) → VMState → Outcome VMState
  | [], s => .ok s.update
  | i :: is, s =>
    match vonMises P n l i s with
    | .ok s' => vmStep P n l is s'
    | .fail f => .fail f
    | .ub => .ub

/-- A sequence of steps. -/
def vmRun (P : VMParams) (n : Nat) (l : List Nat) : List (List (Geo × (Nat → ℝ))) → VMState →
    Outcome VMState
  | [], s => .ok s
  | st :: hist, s =>
    match vmStep P n l st s with
    | .ok s' => vmRun P n l hist s'
    | .fail f => .fail f
    | .ub => .ub

/-! ### The Johnson-Cook model -/

/-- Parameters of `JohnsonCookDamageModel`, Peridigm_JohnsonCookDamageModel.cpp:56-88. -/
structure JCParams where
  d1 : ℝ
  d2 : ℝ
  d3 : ℝ
  critical : ℝ
  threshold : ℝ
  neglect : ℝ

/-- The checks in the constructor, Peridigm_JohnsonCookDamageModel.cpp:82-85. -/
def JCParams.construct (P : JCParams) : Outcome JCParams :=
  if 1 ≤ P.critical then .fail .terminate
  else if P.critical ≤ P.threshold then .fail .terminate
  else .ok P

/-- `epsF`, Peridigm_JohnsonCookDamageModel.cpp:226. -/
def epsF (P : JCParams) (triax : ℝ) : ℝ := P.d1 + P.d2 * Real.exp (-P.d3 * triax)

/-- The new damage parameter, Peridigm_JohnsonCookDamageModel.cpp:219-234: `eqN`, `eqNP1` are the entries of
the equivalent plastic strain at the two steps. -/
def jcParameter (P : JCParams) (dN eqN eqNP1 triax : ℝ) : Outcome ℝ :=
  if epsF P triax = 0 then .ub
  else
    let delta := (eqN - eqNP1) / epsF P triax
    let d := if delta > 0 then dN + delta else dN
    .ok (if d ≥ 1 then 1 else d)

/-- The new bond damage, Peridigm_JohnsonCookDamageModel.cpp:236-241. -/
def jcBond (P : JCParams) (d : ℝ) : Outcome ℝ :=
  if d > P.threshold then
    if 1 - P.threshold = 0 then .ub else .ok ((d - P.threshold) / (1 - P.threshold))
  else .ok 0

/-- The fields of the model. -/
structure JCState where
  parN : Nat → ℝ
  parNP1 : Nat → ℝ
  bondNP1 : Nat → ℝ
  damage : Nat → ℝ
  broken : Nat → ℝ
  flag : Nat → ℝ

/-- What one evaluation reads: geometry, equivalent plastic strain at both steps, triaxiality. -/
structure JCInput where
  geo : Geo
  eqN : Nat → ℝ
  eqNP1 : Nat → ℝ
  triax : Nat → ℝ

/-- The bond loop, Peridigm_JohnsonCookDamageModel.cpp:209-257. -/
def jcLoop (P : JCParams) (I : JCInput) (parN : Nat → ℝ) : List Bond → JCState → Outcome JCState
  | [], s => .ok s
  | b :: bs, s =>
    match jcParameter P (parN b.b) (I.eqN b.b) (I.eqNP1 b.b) (I.triax b.b), I.geo.weight b with
    | .ok d, .ok w =>
      match jcBond P d with
      | .ok bd =>
        jcLoop P I parN bs { s with
          parNP1 := Function.update s.parNP1 b.b d
          bondNP1 := Function.update s.bondNP1 b.b bd
          damage := Function.update s.damage b.i (s.damage b.i + d * w)
          broken := Function.update s.broken b.i (s.broken b.i + bd * w) }
      | .fail f => .fail f
      | .ub => .ub
    | .fail f, _ => .fail f
    | _, .fail f => .fail f
    | _, _ => .ub

/-- `JohnsonCookDamageModel::computeDamage`, Peridigm_JohnsonCookDamageModel.cpp:140-279. The flag of every
point is set to -1 beforehand (178), so the branch for flagged points (262-277) is never taken. -/
def johnsonCook (P : JCParams) (n : Nat) (l : List Nat) (I : JCInput) (s : JCState) : Outcome JCState :=
  match visitedBonds n l with
  | .ok bs =>
    match jcLoop P I s.parN bs { s with
        damage := fun _ => 0
        broken := fun p => if p < n then 0 else s.broken p } with
    | .ok s' => .ok { s' with flag := fun p => if p < n ∧ s'.broken p > P.neglect then 1 else -1 }
    | .fail f => .fail f
    | .ub => .ub
  | .fail f => .fail f
  | .ub => .ub

/-- `updateState` for the damage parameter; the bond damage at step NP1 is rewritten in every evaluation. -/
def JCState.update (s : JCState) : JCState := { s with parN := s.parNP1, parNP1 := s.parN }

/-- The evaluations of one step and `updateState`. -/
def jcStep (P : JCParams) (n : Nat) (l : List Nat) : List JCInput → JCState → Outcome JCState
  | [], s => .ok s.update
  | i :: is, s =>
    match johnsonCook P n l i s with
    | .ok s' => jcStep P n l is s'
    | .fail f => .fail f
    | .ub => .ub

/-- A sequence of steps. -/
def jcRun (P : JCParams) (n : Nat) (l : List Nat) : List (List JCInput) → JCState → Outcome JCState
  | [], s => .ok s
  | st :: hist, s =>
    match jcStep P n l st s with
    | .ok s' => jcRun P n l hist s'
    | .fail f => .fail f
    | .ub => .ub

end Verif.Damage
