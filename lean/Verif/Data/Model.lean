import Verif.Common.Sort
import Verif.Common.Epetra
import Verif.Field.Model

/-!
# Model of `State` and `DataManager`

Models /repo/src/core/Peridigm_State.{hpp,cpp} and /repo/src/core/Peridigm_DataManager.{hpp,cpp}
on one processor.  Vectors are objects on a heap addressed by references (`Ref`), because the code
hands out `Teuchos::RCP`s and swaps them; a null `RCP` is `none`.
-/

namespace Verif.Data

open Verif Verif.Field

/-- The identity of one `Epetra_Vector` object (the target of a non-null `RCP<Epetra_Vector>`). -/
notation "Ref" => Nat

/-- `PeridigmNS::State`, data members src/core/Peridigm_State.hpp:146-160.
* `pointData`: nine slots, one per element size; a non-null multivector is the list of its columns.
* `bondData`: the bond multivector, as the list of its columns.
* `dataMap`: `fieldIdToDataMap` (the first pair with a given key is the one found).
* `dataVec`: `fieldIdToDataVector`; its length is `numFieldIds`. -/
structure State where
  pointData : List (Option (List Ref))
  bondData : Option (List Ref)
  dataMap : List (Nat × Ref)
  dataVec : List (Option Ref)
  deriving DecidableEq, Repr

/-- Constructor `State()`, src/core/Peridigm_State.hpp:70-73. -/
def State.new : State := ⟨List.replicate 9 none, none, [], []⟩

/-- Everything that is not a member of one particular data manager: the field registry, the heap of
vectors, and the static members of `DataManager`, src/core/Peridigm_DataManager.hpp:200,232-244.
`next` is the first unused reference. -/
structure World (α : Type) where
  fm : FieldManager
  heap : Ref → Vec α
  next : Ref
  allGlobalFieldIds : List Nat
  globalData : List ((Nat × Step) × Ref)
  scalarN : List Ref
  scalarNP1 : List Ref
  scalarNONE : List Ref
  vectorN : List Ref
  vectorNP1 : List Ref
  vectorNONE : List Ref

/-- The non-static members of `DataManager`, src/core/Peridigm_DataManager.hpp:198-254.  The
`std::map<Length, vector<int>>` members are kept as the list of (length, id) pairs in the order they
were pushed; see `idsOfLength`. -/
structure DataManager where
  allFieldIds : List Nat
  statelessPoint : List (Length × Nat)
  statelessBond : List Nat
  statefulPoint : List (Length × Nat)
  statefulBond : List Nat
  ownedScalar : Option BlockMap
  overlapScalar : Option BlockMap
  ownedVector : Option BlockMap
  overlapVector : Option BlockMap
  ownedBond : Option BlockMap
  stateN : Option State
  stateNP1 : Option State
  stateNONE : Option State
  deriving DecidableEq, Repr

/-- Constructor `DataManager()`, src/core/Peridigm_DataManager.hpp:71. -/
def DataManager.new : DataManager :=
  ⟨[], [], [], [], [], none, none, none, none, none, none, none, none⟩

/-- The five maps handed to `setMaps`; a null `RCP` is `none`. -/
structure Maps where
  ownedScalar : Option BlockMap
  overlapScalar : Option BlockMap
  ownedVector : Option BlockMap
  overlapVector : Option BlockMap
  ownedBond : Option BlockMap
  deriving DecidableEq, Repr

/-- `DataManager::setMaps`, src/core/Peridigm_DataManager.hpp:90-100. -/
def setMaps (dm : DataManager) (m : Maps) : DataManager :=
  { dm with
    ownedScalar := m.ownedScalar, overlapScalar := m.overlapScalar,
    ownedVector := m.ownedVector, overlapVector := m.overlapVector, ownedBond := m.ownedBond }

variable {α : Type}

/-- `new Epetra_MultiVector(*map, k)` : `k` zero columns with new references. -/
def newColumns [Zero α] (w : World α) (m : BlockMap) (k : Nat) : List Ref × World α :=
  (List.range' w.next k,
   { w with
      heap := fun r => if w.next ≤ r ∧ r < w.next + k then Vec.zeros m else w.heap r
      next := w.next + k })

/-- `fieldIdToDataVector.resize(n)` when the largest id needs it,
src/core/Peridigm_State.cpp:63-67 and 86-90. -/
def resizeFor (v : List (Option Ref)) (maxId : Nat) : List (Option Ref) :=
  if v.length ≤ maxId then v ++ List.replicate (maxId + 1 - v.length) none else v

/-- The loop storing the columns under their field ids, src/core/Peridigm_State.cpp:75-78, 96-99. -/
def storeColumns (st : State) (cols : List (Nat × Ref)) : State :=
  cols.foldl (fun st p =>
    { st with dataMap := p :: st.dataMap, dataVec := st.dataVec.set p.1 (some p.2) }) st

/-- `State::allocatePointData`, src/core/Peridigm_State.cpp:57-79.  `fieldIds.back()` of an empty
vector is undefined; a null map is dereferenced at line 74. -/
def allocatePointData [Zero α] (w : World α) (st : State) (len : Length) (fieldIds : List Nat)
    (map : Option BlockMap) : Outcome (World α × State) :=
  match (sortIds fieldIds).getLast? with
  | none => .ub
  | some maxId =>
    let vec := resizeFor st.dataVec maxId
    match variableDimension len with
    | .fail f => .fail f
    | .ub => .ub
    | .ok dim =>
      match st.pointData[dim - 1]? with
      | none => .ub
      | some (some _) => .fail .terminate
      | some none =>
        match map with
        | none => .ub
        | some m =>
          let (cols, w') := newColumns w m fieldIds.length
          let st' := { st with pointData := st.pointData.set (dim - 1) (some cols), dataVec := vec }
          .ok (w', storeColumns st' ((sortIds fieldIds).zip cols))

/-- `State::allocateBondData`, src/core/Peridigm_State.cpp:81-100. -/
def allocateBondData [Zero α] (w : World α) (st : State) (fieldIds : List Nat)
    (map : Option BlockMap) : Outcome (World α × State) :=
  match (sortIds fieldIds).getLast? with
  | none => .ub
  | some maxId =>
    let vec := resizeFor st.dataVec maxId
    match st.bondData with
    | some _ => .fail .terminate
    | none =>
      match map with
      | none => .ub
      | some m =>
        let (cols, w') := newColumns w m fieldIds.length
        let st' := { st with bondData := some cols, dataVec := vec }
        .ok (w', storeColumns st' ((sortIds fieldIds).zip cols))

/-- `State::hasData`, src/core/Peridigm_State.cpp:116-121 (`lower_bound` plus comparison is the
membership test of the map). -/
def State.hasData (st : State) (f : Nat) : Bool := (st.dataMap.lookup f).isSome

/-- `State::getData`, src/core/Peridigm_State.cpp:123-130: unchecked vector index; the result may be
a null `RCP`. -/
def State.getData (st : State) (f : Nat) : Outcome (Option Ref) :=
  match st.dataVec[f]? with
  | some r => .ok r
  | none => .ub

/-- The temporaries and members filled by the classification loop of `allocateData`. -/
structure Sorted where
  dm : DataManager
  allGlobal : List Nat
  slScalar : List Nat
  slVector : List Nat
  sfScalar : List Nat
  sfVector : List Nat

/-- One iteration of the classification loop, src/core/Peridigm_DataManager.cpp:82-146.  A relation
that is none of the four known ones is skipped silently. -/
def classify (fm : FieldManager) (s : Sorted) (f : Nat) : Outcome Sorted :=
  match Field.getFieldSpec fm f with
  | .fail e => .fail e
  | .ub => .ub
  | .ok spec =>
    match spec.relation with
    | .global =>
      if f ∈ s.allGlobal then .ok s
      else
        match spec.length, spec.temporal with
        | .scalar, .constant =>
          .ok { s with slScalar := s.slScalar ++ [f], allGlobal := s.allGlobal ++ [f] }
        | .scalar, .twoStep =>
          .ok { s with sfScalar := s.sfScalar ++ [f], allGlobal := s.allGlobal ++ [f] }
        | .vector, .constant =>
          .ok { s with slVector := s.slVector ++ [f], allGlobal := s.allGlobal ++ [f] }
        | .vector, .twoStep =>
          .ok { s with sfVector := s.sfVector ++ [f], allGlobal := s.allGlobal ++ [f] }
        | _, _ => .fail .rangeError
    | .bond =>
      if spec.length ≠ .scalar then .fail .rangeError
      else
        match spec.temporal with
        | .constant => .ok { s with dm := { s.dm with
            statelessBond := s.dm.statelessBond ++ [f], allFieldIds := s.dm.allFieldIds ++ [f] } }
        | .twoStep => .ok { s with dm := { s.dm with
            statefulBond := s.dm.statefulBond ++ [f], allFieldIds := s.dm.allFieldIds ++ [f] } }
        | .undefined => .fail .rangeError
    | .undefined => .ok s
    | _ =>
      match spec.temporal with
      | .constant => .ok { s with dm := { s.dm with
          statelessPoint := s.dm.statelessPoint ++ [(spec.length, f)]
          allFieldIds := s.dm.allFieldIds ++ [f] } }
      | .twoStep => .ok { s with dm := { s.dm with
          statefulPoint := s.dm.statefulPoint ++ [(spec.length, f)]
          allFieldIds := s.dm.allFieldIds ++ [f] } }
      | .undefined => .fail .rangeError

/-- The keys of `std::map<Length, vector<int>>` in iteration (enumeration) order,
src/core/Peridigm_Field.hpp:73-88. -/
def lengthOrder : List Length :=
  [.undefined, .length1, .length2, .length3, .length4, .length5, .length6, .length7, .length8,
   .length9, .scalar, .vector, .symmetricTensor, .fullTensor]

/-- The vector stored under one key of the map. -/
def idsOfLength (ps : List (Length × Nat)) (len : Length) : List Nat :=
  (ps.filter (fun p => p.1 = len)).map Prod.snd

/-- The (key, value) pairs visited by `for(it = m.begin(); ...)`. -/
def entries (ps : List (Length × Nat)) : List (Length × List Nat) :=
  (lengthOrder.map fun len => (len, idsOfLength ps len)).filter (fun e => e.2 ≠ [])

/-- The map chosen for a length, src/core/Peridigm_DataManager.cpp:232-242 and 255-265.  For other
lengths the ids of the scalar overlap map are used (`numMyElements`, `myGlobalElements`,
lines 152-161). -/
def mapFor (dm : DataManager) (len : Length) : Outcome (Option BlockMap) :=
  match len with
  | .scalar => .ok dm.overlapScalar
  | .vector => .ok dm.overlapVector
  | _ =>
    match variableDimension len with
    | .ok dim =>
      match dm.overlapScalar with
      | some m => .ok (some (BlockMap.const m.gids dim))
      | none => .ub
    | .fail f => .fail f
    | .ub => .ub

/-- The loop allocating all point data of one state, src/core/Peridigm_DataManager.cpp:229-244. -/
def allocPoints [Zero α] (dm : DataManager) :
    List (Length × List Nat) → World α → State → Outcome (World α × State)
  | [], w, st => .ok (w, st)
  | (len, ids) :: es, w, st =>
    match mapFor dm len with
    | .fail f => .fail f
    | .ub => .ub
    | .ok m =>
      match allocatePointData w st len ids m with
      | .fail f => .fail f
      | .ub => .ub
      | .ok (w', st') => allocPoints dm es w' st'

/-- The loop allocating all point data of the two stateful states,
src/core/Peridigm_DataManager.cpp:252-268: for every length first `stateN`, then `stateNP1`. -/
def allocPoints2 [Zero α] (dm : DataManager) :
    List (Length × List Nat) → World α → State → State → Outcome (World α × State × State)
  | [], w, stN, stP => .ok (w, stN, stP)
  | (len, ids) :: es, w, stN, stP =>
    match mapFor dm len with
    | .fail f => .fail f
    | .ub => .ub
    | .ok m =>
      match allocatePointData w stN len ids m with
      | .fail f => .fail f
      | .ub => .ub
      | .ok (w', stN') =>
        match allocatePointData w' stP len ids m with
        | .fail f => .fail f
        | .ub => .ub
        | .ok (w'', stP') => allocPoints2 dm es w'' stN' stP'

/-- `if(bondIds.size() > 0) state->allocateBondData(...)`,
src/core/Peridigm_DataManager.cpp:245-247. -/
def allocBond [Zero α] (w : World α) (st : State) (ids : List Nat) (m : Option BlockMap) :
    Outcome (World α × State) :=
  if ids = [] then .ok (w, st) else allocateBondData w st ids m

/-- Global data: one stateless vector of `k` entries, src/core/Peridigm_DataManager.cpp:197-201 for
scalars and 209-213 for vectors. -/
def allocGlobalNone [Zero α] (isVector : Bool) (w : World α) (f : Nat) : World α :=
  let m := BlockMap.const [0] (if isVector then 3 else 1)
  let w1 := (newColumns w m 1).2
  let w2 := { w1 with globalData := ((f, Step.none), w.next) :: w1.globalData }
  if isVector then { w2 with vectorNONE := w2.vectorNONE ++ [w.next] }
  else { w2 with scalarNONE := w2.scalarNONE ++ [w.next] }

/-- Global data: one stateful pair, src/core/Peridigm_DataManager.cpp:202-208 for scalars and
214-220 for vectors. -/
def allocGlobalTwo [Zero α] (isVector : Bool) (w : World α) (f : Nat) : World α :=
  let m := BlockMap.const [0] (if isVector then 3 else 1)
  let w1 := (newColumns w m 2).2
  let w2 := { w1 with
    globalData := ((f, Step.np1), w.next + 1) :: ((f, Step.n), w.next) :: w1.globalData }
  if isVector then
    { w2 with vectorN := w2.vectorN ++ [w.next], vectorNP1 := w2.vectorNP1 ++ [w.next + 1] }
  else
    { w2 with scalarN := w2.scalarN ++ [w.next], scalarNP1 := w2.scalarNP1 ++ [w.next + 1] }

/-- `DataManager::getEpetraComm` succeeds when any map is set,
src/core/Peridigm_DataManager.cpp:467-484. -/
def hasComm (dm : DataManager) : Bool :=
  dm.ownedScalar.isSome || dm.overlapScalar.isSome || dm.ownedVector.isSome
    || dm.overlapVector.isSome || dm.ownedBond.isSome

/-- The classification loop over all requested ids, src/core/Peridigm_DataManager.cpp:80-147. -/
def classifyAll (fm : FieldManager) : List Nat → Sorted → Outcome Sorted
  | [], s => .ok s
  | f :: fs, s =>
    match classify fm s f with
    | .ok s' => classifyAll fm fs s'
    | .fail e => .fail e
    | .ub => .ub

/-- The global-data section, src/core/Peridigm_DataManager.cpp:168-221.  The static one-element maps
of lines 174-194 are constants here. -/
def allocGlobals [Zero α] (dm : DataManager) (s : Sorted) (w : World α) : Outcome (World α) :=
  if s.slScalar.length + s.sfScalar.length + s.slVector.length + s.sfVector.length > 0 then
    if hasComm dm then
      let w1 := s.slScalar.foldl (allocGlobalNone false) w
      let w2 := s.sfScalar.foldl (allocGlobalTwo false) w1
      let w3 := s.slVector.foldl (allocGlobalNone true) w2
      .ok (s.sfVector.foldl (allocGlobalTwo true) w3)
    else .fail .nullReference
  else .ok w

/-- The stateless section, src/core/Peridigm_DataManager.cpp:227-248. -/
def allocStateless [Zero α] (dm : DataManager) (w : World α) : Outcome (World α × DataManager) :=
  if dm.statelessPoint = [] ∧ dm.statelessBond = [] then .ok (w, dm)
  else
    match allocPoints dm (entries dm.statelessPoint) w State.new with
    | .fail e => .fail e
    | .ub => .ub
    | .ok (w1, st) =>
      match allocBond w1 st dm.statelessBond dm.ownedBond with
      | .fail e => .fail e
      | .ub => .ub
      | .ok (w2, st') => .ok (w2, { dm with stateNONE := some st' })

/-- The stateful section, src/core/Peridigm_DataManager.cpp:249-273. -/
def allocStateful [Zero α] (dm : DataManager) (w : World α) : Outcome (World α × DataManager) :=
  if dm.statefulPoint = [] ∧ dm.statefulBond = [] then .ok (w, dm)
  else
    match allocPoints2 dm (entries dm.statefulPoint) w State.new State.new with
    | .fail e => .fail e
    | .ub => .ub
    | .ok (w1, stN, stP) =>
      match allocBond w1 stN dm.statefulBond dm.ownedBond with
      | .fail e => .fail e
      | .ub => .ub
      | .ok (w2, stN') =>
        match allocBond w2 stP dm.statefulBond dm.ownedBond with
        | .fail e => .fail e
        | .ub => .ub
        | .ok (w3, stP') => .ok (w3, { dm with stateN := some stN', stateNP1 := some stP' })

/-- `DataManager::allocateData`, src/core/Peridigm_DataManager.cpp:67-274. -/
def allocateData [Zero α] (w : World α) (dm : DataManager) (fieldIds : List Nat) :
    Outcome (World α × DataManager) :=
  match classifyAll w.fm (sortUnique fieldIds) ⟨dm, w.allGlobalFieldIds, [], [], [], []⟩ with
  | .fail e => .fail e
  | .ub => .ub
  | .ok s =>
    let w0 := { w with allGlobalFieldIds := s.allGlobal }
    let dm0 := { s.dm with allFieldIds := s.dm.allFieldIds ++ s.allGlobal }
    if (dm0.statelessPoint ≠ [] ∨ dm0.statefulPoint ≠ []) ∧ dm0.overlapScalar = none then
      .fail .nullReference
    else if (dm0.statelessBond ≠ [] ∨ dm0.statefulBond ≠ []) ∧ dm0.ownedBond = none then
      .fail .nullReference
    else
      match allocGlobals dm0 s w0 with
      | .fail e => .fail e
      | .ub => .ub
      | .ok w1 =>
        match allocStateless dm0 w1 with
        | .fail e => .fail e
        | .ub => .ub
        | .ok (w2, dm2) => allocStateful dm2 w2

/-- The state object selected by a step; `STEP_UNDEFINED` selects none of them
(src/core/Peridigm_DataManager.cpp:518-526, 549-557). -/
def stateOf (dm : DataManager) : Step → Option State
  | .none => dm.stateNONE
  | .n => dm.stateN
  | .np1 => dm.stateNP1
  | .undefined => none

/-- `DataManager::hasData`, src/core/Peridigm_DataManager.cpp:513-539.  The states are dereferenced
without a null check (lines 519, 522, 525); the test macro in the last branch has the condition
`false` and never throws. -/
def hasData (w : World α) (dm : DataManager) (f : Nat) (s : Step) : Outcome Bool :=
  let inGlobal := (w.globalData.lookup (f, s)).isSome
  match s with
  | .undefined => .ok inGlobal
  | _ =>
    match stateOf dm s with
    | none => .ub
    | some st => .ok (st.hasData f || inGlobal)

/-- `DataManager::getData`, src/core/Peridigm_DataManager.cpp:541-573.  The states are dereferenced
without a null check; the macro in line 559 never throws; a null result raises `RangeError`. -/
def getData (w : World α) (dm : DataManager) (f : Nat) (s : Step) : Outcome Ref :=
  match isGlobalSpec w.fm f with
  | .fail e => .fail e
  | .ub => .ub
  | .ok true =>
    match w.globalData.lookup (f, s) with
    | some r => .ok r
    | none => .fail .rangeError
  | .ok false =>
    match s with
    | .undefined => .fail .rangeError
    | _ =>
      match stateOf dm s with
      | none => .ub
      | some st =>
        match st.getData f with
        | .ok (some r) => .ok r
        | .ok none => .fail .rangeError
        | .fail e => .fail e
        | .ub => .ub

/-- Write one entry of a vector on the heap. -/
def World.setEntry (w : World α) (r : Ref) (i : Nat) (x : α) : Outcome (World α) :=
  match (w.heap r).setEntry i x with
  | .ok v => .ok { w with heap := fun r' => if r' = r then v else w.heap r' }
  | .fail e => .fail e
  | .ub => .ub

/-- `(*dst)[i] = (*src)[i]`. -/
def World.copyEntry (w : World α) (src dst : Ref) (i : Nat) : Outcome (World α) :=
  match (w.heap src).getEntry i with
  | .ok x => w.setEntry dst i x
  | .fail e => .fail e
  | .ub => .ub

/-- `(*dst)[i] = (*src)[i]` for the listed entries. -/
def World.copyEntries (w : World α) (src dst : Ref) : List Nat → Outcome (World α)
  | [] => .ok w
  | i :: is =>
    match w.copyEntry src dst i with
    | .ok w' => w'.copyEntries src dst is
    | .fail e => .fail e
    | .ub => .ub

/-- The loops over the global vectors in `updateState`, src/core/Peridigm_DataManager.hpp:165-171:
the loop bound is the size of the state-N list; the state-NP1 list is indexed unchecked. -/
def World.shiftGlobals (comps : List Nat) (w : World α) : List Ref → List Ref → Outcome (World α)
  | [], _ => .ok w
  | _ :: _, [] => .ub
  | n :: ns, p :: ps =>
    match w.copyEntries p n comps with
    | .ok w' => w'.shiftGlobals comps ns ps
    | .fail e => .fail e
    | .ub => .ub

/-- `DataManager::updateState`, src/core/Peridigm_DataManager.hpp:159-175. -/
def updateState (w : World α) (dm : DataManager) : Outcome (World α × DataManager) :=
  match w.shiftGlobals [0] w.scalarN w.scalarNP1 with
  | .fail e => .fail e
  | .ub => .ub
  | .ok w1 =>
    match w1.shiftGlobals [0, 1, 2] w1.vectorN w1.vectorNP1 with
    | .fail e => .fail e
    | .ub => .ub
    | .ok w2 => .ok (w2, { dm with stateN := dm.stateNP1, stateNP1 := dm.stateN })

/-! ### Programs using the data managers -/

/-- A process with its data managers (one per block, in creation order). -/
structure System (α : Type) where
  world : World α
  dms : List DataManager

/-- Program start: empty registry, empty static members, no data manager. -/
def System.init [Zero α] : System α :=
  ⟨⟨FieldManager.empty, fun _ => ⟨⟨[], []⟩, []⟩, 0, [], [], [], [], [], [], [], []⟩, []⟩

/-- The API calls a client can make. `write b f s i x` is
`(*dataManager_b->getData(f, s))[i] = x`. -/
inductive Cmd (α : Type) where
  | register (r : Request)
  | create (m : Maps) (fieldIds : List Nat)
  | write (b : Nat) (f : Nat) (s : Step) (i : Nat) (x : α)
  | update (b : Nat)

/-- The vector read by `*dataManager_b->getData(f, s)`. -/
def System.read (sys : System α) (b f : Nat) (s : Step) : Outcome (Vec α) :=
  match sys.dms[b]? with
  | none => .ub
  | some dm =>
    match getData sys.world dm f s with
    | .ok r => .ok (sys.world.heap r)
    | .fail e => .fail e
    | .ub => .ub

/-- Execution of one API call. -/
def exec [Zero α] (sys : System α) : Cmd α → Outcome (System α)
  | .register r =>
    match Field.getFieldId sys.world.fm r with
    | .ok (_, fm) => .ok { sys with world := { sys.world with fm := fm } }
    | .fail e => .fail e
    | .ub => .ub
  | .create m ids =>
    match allocateData sys.world (setMaps DataManager.new m) ids with
    | .ok (w, dm) => .ok ⟨w, sys.dms ++ [dm]⟩
    | .fail e => .fail e
    | .ub => .ub
  | .write b f s i x =>
    match sys.dms[b]? with
    | none => .ub
    | some dm =>
      match getData sys.world dm f s with
      | .ok r =>
        match sys.world.setEntry r i x with
        | .ok w => .ok { sys with world := w }
        | .fail e => .fail e
        | .ub => .ub
      | .fail e => .fail e
      | .ub => .ub
  | .update b =>
    match sys.dms[b]? with
    | none => .ub
    | some dm =>
      match updateState sys.world dm with
      | .ok (w, dm') => .ok ⟨w, sys.dms.set b dm'⟩
      | .fail e => .fail e
      | .ub => .ub

/-- Execution of a sequence of API calls. -/
def execAll [Zero α] (sys : System α) : List (Cmd α) → Outcome (System α)
  | [] => .ok sys
  | c :: cs =>
    match exec sys c with
    | .ok sys' => execAll sys' cs
    | .fail e => .fail e
    | .ub => .ub

/-- The states a client can bring about. -/
def Reachable [Zero α] (sys : System α) : Prop :=
  ∃ cmds, execAll System.init cmds = .ok sys

end Verif.Data
