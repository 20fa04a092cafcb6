import Verif.Common.Epetra
import Verif.Common.Sort
import Verif.Field.Model

/-!
# Model of copying and redistributing data between maps

Models `State::copyLocallyOwned...`, `DataManager::copyLocallyOwnedDataFromDataManager`,
`DataManager::scatterToGhosts` and `DataManager::rebalance`
(/repo/src/core/Peridigm_State.cpp, /repo/src/core/Peridigm_DataManager.cpp).
Multivectors are values here; that the vectors of one manager do not share storage is
`Verif.Data.C06_own_storage`.
-/

namespace Verif.Redist

open Verif Verif.Field

/-- An `Epetra_MultiVector` on one processor: its map and its columns. -/
structure MultiVec (α : Type) where
  map : BlockMap
  cols : List (List α)
  deriving DecidableEq, Repr

/-- `new Epetra_MultiVector(map, k)`. -/
def MultiVec.zeros {α : Type} [Zero α] (m : BlockMap) (k : Nat) : MultiVec α :=
  ⟨m, List.replicate k (List.replicate m.numPoints 0)⟩

variable {α : Type}

/-- `for(i=0 ; i<k ; ++i) tgt[tp+i] = src[sp+i]`, the innermost loops of
src/core/Peridigm_State.cpp:228-230 and src/core/Peridigm_DataManager.cpp:358-359.  Reading or
writing outside the arrays is undefined. -/
def copyBlock (src : List α) (sp tp : Nat) : Nat → List α → Outcome (List α)
  | 0, tgt => .ok tgt
  | k + 1, tgt =>
    match copyBlock src sp tp k tgt with
    | .fail e => .fail e
    | .ub => .ub
    | .ok t =>
      match src[sp + k]? with
      | none => .ub
      | some x => if tp + k < t.length then .ok (t.set (tp + k) x) else .ub

/-- One iteration of the loop over the target's local ids, src/core/Peridigm_State.cpp:218-231. -/
def copyElement (sm tm : BlockMap) (src : List α) (l gid : Nat) (tgt : List α) : Outcome (List α) :=
  match sm.lid gid with
  | none => .fail .rangeError
  | some sl =>
    match sm.sizes[sl]?, tm.sizes[l]? with
    | some ks, some kt =>
      if ks ≠ kt then .fail .rangeError
      else copyBlock src (sm.firstPoint sl) (tm.firstPoint l) kt tgt
    | _, _ => .ub

/-- The loop over the target's local ids; the argument lists the global ids from local id `l` on. -/
def copyElements (sm tm : BlockMap) (src : List α) : Nat → List Nat → List α → Outcome (List α)
  | _, [], tgt => .ok tgt
  | l, gid :: gids, tgt =>
    match copyElement sm tm src l gid tgt with
    | .ok t => copyElements sm tm src (l + 1) gids t
    | .fail e => .fail e
    | .ub => .ub

/-- The loop over the columns, src/core/Peridigm_State.cpp:215-232. -/
def copyColumns (sm tm : BlockMap) : List (List α) → List (List α) → Outcome (List (List α))
  | s :: ss, t :: ts =>
    match copyElements sm tm s 0 tm.gids t with
    | .fail e => .fail e
    | .ub => .ub
    | .ok t' =>
      match copyColumns sm tm ss ts with
      | .fail e => .fail e
      | .ub => .ub
      | .ok ts' => .ok (t' :: ts')
  | _, _ => .ok []

/-- `State::copyLocallyOwnedMultiVectorData`, src/core/Peridigm_State.cpp:208-233. -/
def copyMultiVec (s t : MultiVec α) : Outcome (MultiVec α) :=
  if s.cols.length ≠ t.cols.length then .fail .runtimeError
  else
    match copyColumns s.map t.map s.cols t.cols with
    | .ok cs => .ok ⟨t.map, cs⟩
    | .fail e => .fail e
    | .ub => .ub

/-- The data of one `State`: the nine point multivectors and the bond multivector,
src/core/Peridigm_State.hpp:149-153. -/
structure VState (α : Type) where
  pointData : List (Option (MultiVec α))
  bondData : Option (MultiVec α)

/-- One null-checked copy, src/core/Peridigm_State.cpp:139-143 and 146-150: nothing happens if the
target has no such multivector, and a missing source is an error. -/
def copySlot (s t : Option (MultiVec α)) : Outcome (Option (MultiVec α)) :=
  match t, s with
  | none, _ => .ok none
  | some _, none => .fail .nullReference
  | some tv, some sv =>
    match copyMultiVec sv tv with
    | .ok v => .ok (some v)
    | .fail e => .fail e
    | .ub => .ub

/-- The loop over the point multivectors, src/core/Peridigm_State.cpp:138-144.  Both states have nine
slots; a shorter source would be indexed out of range. -/
def copySlots : List (Option (MultiVec α)) → List (Option (MultiVec α)) →
    Outcome (List (Option (MultiVec α)))
  | _, [] => .ok []
  | [], _ :: _ => .ub
  | s :: ss, t :: ts =>
    match copySlot s t with
    | .fail e => .fail e
    | .ub => .ub
    | .ok t' =>
      match copySlots ss ts with
      | .fail e => .fail e
      | .ub => .ub
      | .ok ts' => .ok (t' :: ts')

/-- `State::copyLocallyOwnedDataFromState`, src/core/Peridigm_State.cpp:132-151 (the null source is
handled by `copyManager`). -/
def copyState (s t : VState α) : Outcome (VState α) :=
  match copySlots s.pointData t.pointData with
  | .fail e => .fail e
  | .ub => .ub
  | .ok ps =>
    match copySlot s.bondData t.bondData with
    | .fail e => .fail e
    | .ub => .ub
    | .ok b => .ok ⟨ps, b⟩

/-- The fields of a data manager by temporal kind (`statelessPointFieldIds` etc., ids by length) and
its three states, src/core/Peridigm_DataManager.hpp:205-254. -/
structure VManager (α : Type) where
  statelessPoint : List (Length × List Nat)
  statelessBond : List Nat
  statefulPoint : List (Length × List Nat)
  statefulBond : List Nat
  stateNONE : Option (VState α)
  stateN : Option (VState α)
  stateNP1 : Option (VState α)

/-- One of the three blocks of src/core/Peridigm_DataManager.cpp:488-510. -/
def copyOptState (s t : Option (VState α)) : Outcome (Option (VState α)) :=
  match t, s with
  | some tv, some sv =>
    match copyState sv tv with
    | .ok v => .ok (some v)
    | .fail e => .fail e
    | .ub => .ub
  | none, none => .ok none
  | _, _ => .fail .nullReference

/-- `DataManager::copyLocallyOwnedDataFromDataManager`, src/core/Peridigm_DataManager.cpp:486-511. -/
def copyManager (s t : VManager α) : Outcome (VManager α) :=
  match copyOptState s.stateNONE t.stateNONE with
  | .fail e => .fail e
  | .ub => .ub
  | .ok a =>
    match copyOptState s.stateN t.stateN with
    | .fail e => .fail e
    | .ub => .ub
    | .ok b =>
      match copyOptState s.stateNP1 t.stateNP1 with
      | .fail e => .fail e
      | .ub => .ub
      | .ok c => .ok { t with stateNONE := a, stateN := b, stateNP1 := c }

/-! ### Where a field is stored -/

/-- Column of a field: the ids are sorted before columns are assigned,
src/core/Peridigm_State.cpp:61, 75-78 and 84, 96-99. -/
def columnOf (ids : List Nat) (f : Nat) : Option Nat :=
  if f ∈ ids then some ((sortIds ids).idxOf f) else none

/-- Point multivector slot and column of a field, src/core/Peridigm_State.cpp:68-78: the slot is the
dimension of the field's length minus one. -/
def pointColumn : List (Length × List Nat) → Nat → Option (Nat × Nat)
  | [], _ => none
  | (len, ids) :: es, f =>
    match columnOf ids f, variableDimension len with
    | some c, .ok d => some (d - 1, c)
    | _, _ => pointColumn es f

/-- The multivector and column that `State::getData` delivers for a field. -/
def VState.column (pts : List (Length × List Nat)) (bonds : List Nat) (st : VState α) (f : Nat) :
    Option (BlockMap × List α) :=
  match pointColumn pts f with
  | some (slot, c) => (st.pointData[slot]?).join.bind fun mv => (mv.cols[c]?).map fun v => (mv.map, v)
  | none =>
    match columnOf bonds f with
    | some c => st.bondData.bind fun mv => (mv.cols[c]?).map fun v => (mv.map, v)
    | none => none

/-- `*getData(f, step)` of a local field, src/core/Peridigm_DataManager.cpp:541-573. -/
def VManager.data (m : VManager α) (f : Nat) : Step → Option (BlockMap × List α)
  | .none => m.stateNONE.bind fun st => st.column m.statelessPoint m.statelessBond f
  | .n => m.stateN.bind fun st => st.column m.statefulPoint m.statefulBond f
  | .np1 => m.stateNP1.bind fun st => st.column m.statefulPoint m.statefulBond f
  | .undefined => none

/-! ### Several processors -/

/-- A multivector distributed over the processors: entry `p` is processor `p`'s part. -/
abbrev DistMV (α : Type) := List (MultiVec α)

/-- The owned part of an overlap multivector column, src/core/Peridigm_DataManager.cpp:355-360: the
local id in the overlap map is used without a test, so a missing id (`-1`) indexes out of range. -/
def gatherOwned (es : Nat) (om : BlockMap) (src : List α) : Nat → List Nat → List α →
    Outcome (List α)
  | _, [], tgt => .ok tgt
  | l, gid :: gids, tgt =>
    match om.lid gid with
    | none => .ub
    | some ol =>
      match copyBlock src (ol * es) (l * es) es tgt with
      | .ok t => gatherOwned es om src (l + 1) gids t
      | .fail e => .fail e
      | .ub => .ub

/-- Run a list of computations; the first abnormal one decides. -/
def allOk {β γ : Type} (g : β → Outcome γ) : List β → Outcome (List γ)
  | [] => .ok []
  | x :: xs =>
    match g x with
    | .fail e => .fail e
    | .ub => .ub
    | .ok y =>
      match allOk g xs with
      | .fail e => .fail e
      | .ub => .ub
      | .ok ys => .ok (y :: ys)

/-- The owned (non-overlap) multivector of one processor, src/core/Peridigm_DataManager.cpp:348-361. -/
def ownedPart [Zero α] (es : Nat) (owned : BlockMap) (ov : MultiVec α) : Outcome (MultiVec α) :=
  match allOk (fun src => gatherOwned es ov.map src 0 owned.gids
      (List.replicate owned.numPoints 0)) ov.cols with
  | .ok cs => .ok ⟨owned, cs⟩
  | .fail e => .fail e
  | .ub => .ub

/-- `Epetra_Import` + `Import(..., Insert)` (Trilinos, not in /repo) for one element of one column:
processor `p` receives for global id `gid` the element held by processor `pick p gid` of the source
distribution, provided that processor holds the id; otherwise the target element keeps its value.
Epetra promises only that some processor holding the id is used, so `pick` is arbitrary. -/
def importElement (srcs : DistMV α) (q c : Nat) (gid : Nat) : Option (List α) :=
  match srcs[q]? with
  | none => none
  | some s =>
    match s.map.lid gid, s.cols[c]? with
    | some l, some v => (s.map.sizes[l]?).map fun k => (v.drop (s.map.firstPoint l)).take k
    | _, _ => none

/-- Import of one column: the concatenation of the received elements. -/
def importColumn (pick : Nat → Nat) (srcs : DistMV α) (c : Nat) (tm : BlockMap) (old : List α) :
    List α :=
  (tm.gids.mapIdx fun l gid =>
    match importElement srcs (pick gid) c gid with
    | some b => b
    | none => (old.drop (tm.firstPoint l)).take (tm.sizes.getD l 0)).flatten

/-- Import into the multivector of one processor. -/
def importMV (pick : Nat → Nat) (srcs : DistMV α) (t : MultiVec α) : MultiVec α :=
  ⟨t.map, t.cols.mapIdx fun c old => importColumn pick srcs c t.map old⟩

/-- Import on every processor. -/
def importAll (pick : Nat → Nat → Nat) (srcs ts : DistMV α) : DistMV α :=
  ts.mapIdx fun p t => importMV (pick p) srcs t

/-- The data of one `State` on all processors.  A slot is null on every processor or on none,
because all processors allocate the same fields. -/
structure DState (α : Type) where
  pointData : List (Option (DistMV α))
  bondData : Option (DistMV α)

/-- The owned map used for data with `es` entries per point,
src/core/Peridigm_DataManager.cpp:333-345. -/
def ownedMapFor (ownedS ownedV : BlockMap) (es : Nat) : BlockMap :=
  if es = 1 then ownedS else if es = 3 then ownedV else BlockMap.const ownedS.gids es

/-- Pairs one processor's multivector with its owned map; the number of processors is the same in
both lists. -/
def scatterSlot [Zero α] (pick : Nat → Nat → Nat) (es : Nat) (owned : List BlockMap)
    (ov : DistMV α) : Outcome (DistMV α) :=
  match allOk (fun p => ownedPart es p.1 p.2) (owned.zip ov) with
  | .ok os => .ok (importAll pick os ov)
  | .fail e => .fail e
  | .ub => .ub

/-- The loop over the nine slots of one state, src/core/Peridigm_DataManager.cpp:301-367; `es` is
the element size of the first remaining slot. -/
def scatterSlots [Zero α] (pick : Nat → Nat → Nat) (ownedS ownedV : List BlockMap) :
    Nat → List (Option (DistMV α)) → Outcome (List (Option (DistMV α)))
  | _, [] => .ok []
  | es, none :: ss =>
    match scatterSlots pick ownedS ownedV (es + 1) ss with
    | .ok r => .ok (none :: r)
    | .fail e => .fail e
    | .ub => .ub
  | es, some ov :: ss =>
    match scatterSlot pick es ((ownedS.zip ownedV).map fun p => ownedMapFor p.1 p.2 es) ov with
    | .fail e => .fail e
    | .ub => .ub
    | .ok ov' =>
      match scatterSlots pick ownedS ownedV (es + 1) ss with
      | .ok r => .ok (some ov' :: r)
      | .fail e => .fail e
      | .ub => .ub

/-- One pass of the loop over the states, src/core/Peridigm_DataManager.cpp:293-370; a null state is
dereferenced in line 301. -/
def scatterState [Zero α] (pick : Nat → Nat → Nat) (ownedS ownedV : List BlockMap) :
    Option (DState α) → Outcome (DState α)
  | none => .ub
  | some st =>
    match scatterSlots pick ownedS ownedV 1 st.pointData with
    | .ok ps => .ok ⟨ps, st.bondData⟩
    | .fail e => .fail e
    | .ub => .ub

/-- The choices `Epetra_Import` makes in the three kinds of import: from the owned to the overlap
multivectors, from the old to the new overlap multivectors, from the old to the new bond
multivectors.  They depend on the maps only, which have the same ids for all fields and states. -/
structure Choice where
  ghost : Nat → Nat → Nat
  point : Nat → Nat → Nat
  bond : Nat → Nat → Nat

/-- The maps of every processor handed to `rebalance`, and held by the manager. -/
structure DMaps where
  ownedScalar : List BlockMap
  overlapScalar : List BlockMap
  ownedVector : List BlockMap
  overlapVector : List BlockMap
  ownedBond : List BlockMap

/-- A data manager on all processors. -/
structure DManager (α : Type) where
  statelessPoint : List (Length × List Nat)
  statelessBond : List Nat
  statefulPoint : List (Length × List Nat)
  statefulBond : List Nat
  maps : DMaps
  stateNONE : Option (DState α)
  stateN : Option (DState α)
  stateNP1 : Option (DState α)

/-- The new overlap map for a length, src/core/Peridigm_DataManager.cpp:426-436. -/
def newMapFor (m : DMaps) (len : Length) : Outcome (List BlockMap) :=
  match len with
  | .scalar => .ok m.overlapScalar
  | .vector => .ok m.overlapVector
  | _ =>
    match variableDimension len with
    | .ok d => .ok (m.overlapScalar.map fun b => BlockMap.const b.gids d)
    | .fail e => .fail e
    | .ub => .ub

/-- Allocation and import of the point data of one state, src/core/Peridigm_DataManager.cpp:423-440:
a second length of the same dimension terminates (src/core/Peridigm_State.cpp:70-73), an empty id
list is undefined (line 63), a null source multivector is dereferenced. -/
def rebalancePoints [Zero α] (pick : Nat → Nat → Nat) (m : DMaps) (old : List (Option (DistMV α))) :
    List (Length × List Nat) → List (Option (DistMV α)) → Outcome (List (Option (DistMV α)))
  | [], acc => .ok acc
  | (len, ids) :: es, acc =>
    match newMapFor m len, variableDimension len with
    | .ok maps, .ok d =>
      if ids = [] then .ub
      else
        match acc[d - 1]?, old[d - 1]? with
        | some (some _), _ => .fail .terminate
        | some none, some (some ov) =>
          rebalancePoints pick m old es
            (acc.set (d - 1)
              (some (importAll pick ov (maps.map fun b => MultiVec.zeros b ids.length))))
        | _, _ => .ub
    | .fail e, _ => .fail e
    | _, .fail e => .fail e
    | _, _ => .ub

/-- Rebalancing of one state, src/core/Peridigm_DataManager.cpp:418-456. -/
def rebalanceState [Zero α] (ch : Choice) (m : DMaps) (pts : List (Length × List Nat))
    (bonds : List Nat) : Option (DState α) → Outcome (Option (DState α))
  | none => .ok none
  | some st =>
    match rebalancePoints ch.point m st.pointData pts (List.replicate 9 none) with
    | .fail e => .fail e
    | .ub => .ub
    | .ok ps =>
      if bonds = [] then .ok (some ⟨ps, none⟩)
      else
        match st.bondData with
        | none => .ub
        | some ob => .ok (some ⟨ps,
            some (importAll ch.bond ob (m.ownedBond.map fun b => MultiVec.zeros b bonds.length))⟩)

/-- `DataManager::rebalance`, src/core/Peridigm_DataManager.cpp:373-465, with the call of
`scatterToGhosts` (lines 276-371) that precedes it. -/
def rebalance [Zero α] (ch : Choice) (new : DMaps) (d : DManager α) :
    Outcome (DManager α) :=
  match scatterState ch.ghost d.maps.ownedScalar d.maps.ownedVector d.stateNONE with
  | .fail e => .fail e
  | .ub => .ub
  | .ok s0 =>
    match scatterState ch.ghost d.maps.ownedScalar d.maps.ownedVector d.stateN with
    | .fail e => .fail e
    | .ub => .ub
    | .ok s1 =>
      match scatterState ch.ghost d.maps.ownedScalar d.maps.ownedVector d.stateNP1 with
      | .fail e => .fail e
      | .ub => .ub
      | .ok s2 =>
        match rebalanceState ch new d.statelessPoint d.statelessBond (some s0) with
        | .fail e => .fail e
        | .ub => .ub
        | .ok r0 =>
          match rebalanceState ch new d.statefulPoint d.statefulBond (some s1) with
          | .fail e => .fail e
          | .ub => .ub
          | .ok r1 =>
            match rebalanceState ch new d.statefulPoint d.statefulBond (some s2) with
            | .fail e => .fail e
            | .ub => .ub
            | .ok r2 => .ok { d with maps := new, stateNONE := r0, stateN := r1, stateNP1 := r2 }

/-- One processor's view of a distributed state. -/
def DState.onRank (st : DState α) (p : Nat) : VState α :=
  ⟨st.pointData.map fun s => s.bind fun d => d[p]?, st.bondData.bind fun d => d[p]?⟩

/-- One processor's data manager. -/
def DManager.onRank (d : DManager α) (p : Nat) : VManager α :=
  ⟨d.statelessPoint, d.statelessBond, d.statefulPoint, d.statefulBond,
   d.stateNONE.map (·.onRank p), d.stateN.map (·.onRank p), d.stateNP1.map (·.onRank p)⟩

end Verif.Redist
