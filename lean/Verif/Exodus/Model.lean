import Verif.Common.Outcome
import Verif.Field.Model
import Verif.Mech.Model

/-!
# Model of the output file

Models `OutputManager_ExodusII::initializeExodusDatabase`,
`OutputManager_ExodusII::initializeExodusDatabaseWithOnlyGlobalData` and the part of
`OutputManager_ExodusII::write` behind the test of the output frequency
(/repo/src/io/Peridigm_OutputManager_ExodusII.cpp:210-1050) with
`Peridigm::getExodusNodeSets` (/repo/src/core/Peridigm.cpp:4402-4418), on one processor.  Which
calls of `write` get past that test is modelled in `Verif.Outputs.FieldsModel`.

Simplifications.
* The Exodus library is not modelled beyond what its documentation says: what is put is what is
  read.  A value put for a variable that has not been declared, or for a block that has not been
  declared, makes the library return a negative code; `reportExodusError`
  (src/io/Peridigm_OutputManager_ExodusII.cpp:1052-1064) turns it into `std::invalid_argument`.
  The quality-assurance record, the names of the coordinates, `ex_update` and `ex_close` are left
  out, so is the printed warning on file names.
* The two owned point maps of a block have the same global identifiers in the same order
  (`BlockBase::createMapsFromGlobalMaps`, modelled in `Verif.Storage`); one list stands for both.
  The same holds for the one- and three-dimensional maps of the analysis.
* Values are real numbers.  The vectors of a block are functions of the position; that they are
  long enough is a property of the data manager (`Verif.Data`).
* `&v[0]` for an empty vector is a pointer that is not used.
-/

namespace Verif.Exodus

open Verif Verif.Field Verif.Mech

/-- `MAX_STR_LENGTH` of exodusII.h; the arrays for names have one character more,
src/io/Peridigm_OutputManager_ExodusII.cpp:595, 647, 796, 810, 825. -/
def maxStr : Nat := 32

/-- What the output manager asks of a `PeridigmNS::Block`: `getID`, `getName`, the global
identifiers of its owned points, and `getData` of its data manager,
src/core/Peridigm_BlockBase.hpp:74-145; the last is `none` where `hasData` is false. -/
structure Blk where
  id : Int
  name : String
  gids : List Nat
  data : Nat → Step → Option (Nat → ℝ)

/-- A requested variable: the name of the parameter in the list "Output Variables" and the
specification that `FieldManager::getFieldSpec` finds for it,
src/io/Peridigm_OutputManager_ExodusII.cpp:275-278. -/
structure Var where
  name : String
  spec : FieldSpec
  deriving DecidableEq

/-- The loops over `outputVariables`, src/io/Peridigm_OutputManager_ExodusII.cpp:131-138, 275-278,
696-698: the name of every entry is looked up, its value is not. -/
def requested (fm : FieldManager) : List (String × Bool) → Outcome (List Var)
  | [] => .ok []
  | (name, _) :: rest => do
    let spec ← getFieldSpecByLabel fm name
    let vs ← requested fm rest
    .ok (⟨name, spec⟩ :: vs)

/-- `globalDataOnly`, src/io/Peridigm_OutputManager_ExodusII.cpp:131-138. -/
def globalDataOnly (vars : List Var) : Bool := vars.all fun v => v.spec.relation = .global

/-- The data of the analysis that the manager reads: the points the processor owns
(`getOneDimensionalMap`, `getThreeDimensionalMap`), the mothership vector of positions, the node
sets, the identifiers of the fields `Element_Id` and `Proc_Num`, the number of processors and the
rank, src/io/Peridigm_OutputManager_ExodusII.cpp:96-108, 189-190, 519-525, 606-607. -/
structure Site where
  owned : List Nat
  x : Nat → ℝ
  nodeSets : List (String × List Nat)
  idField : Nat
  procField : Nat
  numProc : Nat
  pid : Nat

/-- `Epetra_BlockMap::LID`: the position of a global identifier, `none` for the value -1. -/
def lid (m : List Nat) (g : Nat) : Option Nat := m.idxOf? g

/-! ## The file -/

/-- What is put once, src/io/Peridigm_OutputManager_ExodusII.cpp:549-871. -/
structure Header where
  coords : List V3
  blocks : List (Int × Nat)
  blockNames : List String
  conn : Int → Option (List Nat)
  nodeMap : List Nat
  elemMap : List Nat
  /-- identifier, number of nodes, position of the first node in `setNodes` -/
  sets : List (Nat × Nat × Nat)
  setNodes : List Nat
  setNames : List String
  globalNames : List String
  nodeNames : List String
  elemNames : List String
  truth : List Bool

/-- What is put at every step written, src/io/Peridigm_OutputManager_ExodusII.cpp:255-460. -/
structure Records where
  time : Nat → Option ℝ
  globals : Nat → Option (List ℝ)
  nodal : Nat → Nat → Option (List ℝ)
  elem : Nat → Nat → Int → Option (List ℝ)

/-- A file created with `ex_create`, src/io/Peridigm_OutputManager_ExodusII.cpp:540-541. -/
def Records.empty : Records := ⟨fun _ => none, fun _ => none, fun _ _ => none, fun _ _ _ => none⟩

/-- `ex_put_time`, src/io/Peridigm_OutputManager_ExodusII.cpp:256. -/
def Records.putTime (r : Records) (s : Nat) (t : ℝ) : Records :=
  { r with time := Function.update r.time s (some t) }

/-- `ex_put_glob_vars`, src/io/Peridigm_OutputManager_ExodusII.cpp:306-307. -/
def Records.putGlobals (r : Records) (h : Header) (s : Nat) (vals : List ℝ) : Outcome Records :=
  if vals.length = h.globalNames.length then
    .ok { r with globals := Function.update r.globals s (some vals) }
  else .fail .invalidArgument

/-- `ex_put_nodal_var`, src/io/Peridigm_OutputManager_ExodusII.cpp:342-357. -/
def Records.putNodal (r : Records) (h : Header) (s k : Nat) (vals : List ℝ) : Outcome Records :=
  if 1 ≤ k ∧ k ≤ h.nodeNames.length then
    .ok { r with nodal := Function.update r.nodal s (Function.update (r.nodal s) k (some vals)) }
  else .fail .invalidArgument

/-- `ex_put_elem_var`, src/io/Peridigm_OutputManager_ExodusII.cpp:369-453. -/
def Records.putElem (r : Records) (h : Header) (s k : Nat) (b : Int) (vals : List ℝ) :
    Outcome Records :=
  if (1 ≤ k ∧ k ≤ h.elemNames.length) ∧ b ∈ h.blocks.map Prod.fst then
    let column := Function.update (r.elem s) k (Function.update (r.elem s k) b (some vals))
    .ok { r with elem := Function.update r.elem s column }
  else .fail .invalidArgument

/-! ## Names of variables -/

/-- One of the maps from names to numbers and its counter,
src/io/Peridigm_OutputManager_ExodusII.cpp:545-547, 693-695. -/
structure Index where
  map : List (String × Nat)
  next : Nat

/-- A cleared map and the counter 1, src/io/Peridigm_OutputManager_ExodusII.cpp:544-546,
694-696. -/
def Index.empty : Index := ⟨[], 1⟩

/-- `map.insert(pair(name, index)); index = index + 1;`: `insert` leaves an entry that is there,
the counter grows in any case, src/io/Peridigm_OutputManager_ExodusII.cpp:701-702. -/
def Index.add (s : Index) (name : String) : Index :=
  ⟨if (s.map.lookup name).isSome then s.map else s.map ++ [(name, s.next)], s.next + 1⟩

/-- Consecutive insertions, src/io/Peridigm_OutputManager_ExodusII.cpp:714-740, 761-765. -/
def Index.addAll (s : Index) (names : List String) : Index := names.foldl Index.add s

/-- `map[name]` in `write`, src/io/Peridigm_OutputManager_ExodusII.cpp:343-452: a name that is not
there gives 0. -/
def Index.get (s : Index) (name : String) : Nat := (s.map.lookup name).getD 0

/-- The three maps, src/io/Peridigm_OutputManager_ExodusII.hpp, global_output_field_map,
node_output_field_map, element_output_field_map. -/
structure Names where
  global : Index
  node : Index
  elem : Index

/-- The suffixes of a full tensor, src/io/Peridigm_OutputManager_ExodusII.cpp:414-423, 751-760. -/
def tensorSuffix : List String := ["XX", "XY", "XZ", "YX", "YY", "YZ", "ZX", "ZY", "ZZ"]

/-- The suffixes of a field of N components, src/io/Peridigm_OutputManager_ExodusII.cpp:436-445,
771-780. -/
def numberSuffix : List String := ["_1", "_2", "_3", "_4", "_5", "_6", "_7", "_8", "_9"]

/-- The branches on the relation for scalars and vectors,
src/io/Peridigm_OutputManager_ExodusII.cpp:700-711, 717-740. -/
def Names.addTo (s : Names) (r : Relation) (names : List String) : Names :=
  match r with
  | .global => { s with global := s.global.addAll names }
  | .node => { s with node := s.node.addAll names }
  | .element => { s with elem := s.elem.addAll names }
  | _ => s

/-- One pass of the loop that numbers the variables,
src/io/Peridigm_OutputManager_ExodusII.cpp:697-786. -/
def Names.assign (s : Names) (v : Var) : Outcome Names :=
  match v.spec.length with
  | .scalar => .ok (s.addTo v.spec.relation [v.name])
  | .vector => .ok (s.addTo v.spec.relation [v.name ++ "X", v.name ++ "Y", v.name ++ "Z"])
  | .symmetricTensor => .fail .terminate
  | .fullTensor =>
    if v.spec.relation = .element then
      .ok { s with elem := s.elem.addAll (tensorSuffix.map (v.name ++ ·)) }
    else .fail .invalidArgument
  | l =>
    if v.spec.relation = .element then do
      let n ← variableDimension l
      .ok { s with elem := s.elem.addAll ((numberSuffix.take n).map (v.name ++ ·)) }
    else .fail .invalidArgument

/-- The loop, src/io/Peridigm_OutputManager_ExodusII.cpp:693-787. -/
def Names.assignAll (s : Names) : List Var → Outcome Names
  | [] => .ok s
  | v :: vs => do
    let s' ← s.assign v
    s'.assignAll vs

/-- `strcpy` into an array of `MAX_STR_LENGTH+1` characters,
src/io/Peridigm_OutputManager_ExodusII.cpp:598, 650, 798, 812, 827: a longer string overwrites what
follows the array. -/
def copyName (s : String) : Outcome String := if s.utf8ByteSize ≤ maxStr then .ok s else .ub

/-- Filling the array of names that is handed to `ex_put_var_names`,
src/io/Peridigm_OutputManager_ExodusII.cpp:797-798, 811-813, 826-828: a number beyond the size of
the map writes behind the array.  The order of a `std::map` is that of the keys; the order does not
matter here because the numbers are different. -/
def fillNames : List (String × Nat) → List String → Outcome (List String)
  | [], table => .ok table
  | (name, i) :: rest, table => do
    let s ← copyName name
    if i - 1 < table.length then fillNames rest (table.set (i - 1) s) else .ub

/-- The table of names of one kind of variable, src/io/Peridigm_OutputManager_ExodusII.cpp:791-833:
nothing is declared when there are no variables or, for a database with nodes, when the processor
has no node. -/
def Index.table (s : Index) (haveData : Bool) : Outcome (List String) :=
  if s.map.length > 0 && haveData then fillNames s.map (List.replicate s.map.length "") else .ok []

/-! ## The header -/

/-- `Peridigm::getExodusNodeSets`, src/core/Peridigm.cpp:4411-4415, one node set. -/
def exodusNodeSet (owned : List Nat) : List Nat → Outcome (List Nat)
  | [] => .ok []
  | g :: gs =>
    match lid owned g with
    | none => .fail .terminate
    | some l => do
      let rest ← exodusNodeSet owned gs
      .ok ((l + 1) :: rest)

/-- `Peridigm::getExodusNodeSets`, src/core/Peridigm.cpp:4402-4418. -/
def exodusNodeSets (owned : List Nat) : List (String × List Nat) → Outcome (List (String × List Nat))
  | [] => .ok []
  | (name, gs) :: rest => do
    let s ← exodusNodeSet owned gs
    let ss ← exodusNodeSets owned rest
    .ok ((name, s) :: ss)

/-- The loop that concatenates the node sets,
src/io/Peridigm_OutputManager_ExodusII.cpp:567-578; `k` is `nodeSetIndex`, `offset` the number of
nodes copied so far. -/
def concatSets : List (String × List Nat) → Nat → Nat → List (Nat × Nat × Nat) × List Nat
  | [], _, _ => ([], [])
  | (_, s) :: rest, k, offset =>
    let r := concatSets rest (k + 1) (offset + s.length)
    ((k + 1, s.length, offset) :: r.1, s ++ r.2)

/-- Copying names, src/io/Peridigm_OutputManager_ExodusII.cpp:593-598, 645-650. -/
def copyNames : List String → Outcome (List String)
  | [] => .ok []
  | n :: ns => do
    let s ← copyName n
    let ss ← copyNames ns
    .ok (s :: ss)

/-- `connect[j] = LID(GID)+1`, src/io/Peridigm_OutputManager_ExodusII.cpp:654-666: the node number
of each element of a block, nothing for a block without elements. -/
def connectivity (owned : List Nat) (blocks : List Blk) (id : Int) : Option (List Nat) :=
  (blocks.reverse.find? fun b => b.id = id && !b.gids.isEmpty).map fun b =>
    b.gids.map fun g => match lid owned g with
      | some l => l + 1
      | none => 0

/-- The element number map, src/io/Peridigm_OutputManager_ExodusII.cpp:677-689: an array of
`num_nodes` zeros, filled from the start. -/
def elementMap (owned : List Nat) (blocks : List Blk) : Outcome (List Nat) :=
  let gs := blocks.flatMap fun b => b.gids.map (· + 1)
  if gs.length ≤ owned.length then .ok (gs ++ List.replicate (owned.length - gs.length) 0)
  else .fail .terminate

/-- `STEP_NP1` for two-step fields, `STEP_NONE` otherwise,
src/io/Peridigm_OutputManager_ExodusII.cpp:315-317, 380-382, 844-846. -/
def stepOf (t : Temporal) : Step := if t = .twoStep then .np1 else .none

/-- The entries of the truth table for one block and one variable,
src/io/Peridigm_OutputManager_ExodusII.cpp:841-865. -/
def truthEntries (S : Site) (b : Blk) (v : Var) : Outcome (List Bool) :=
  if v.spec.relation = .element then
    let value := (b.data v.spec.id (stepOf v.spec.temporal)).isSome
      || (v.spec.id == S.idField || v.spec.id == S.procField)
    match v.spec.length with
    | .scalar => .ok [value]
    | .vector => .ok [value, value, value]
    | l => do
      let n ← variableDimension l
      .ok (List.replicate n value)
  else .ok []

/-- The inner loop, src/io/Peridigm_OutputManager_ExodusII.cpp:840-866. -/
def truthRow (S : Site) (b : Blk) : List Var → Outcome (List Bool)
  | [] => .ok []
  | v :: vs => do
    let e ← truthEntries S b v
    let es ← truthRow S b vs
    .ok (e ++ es)

/-- The outer loop, src/io/Peridigm_OutputManager_ExodusII.cpp:839-867. -/
def truthRows (S : Site) (vars : List Var) : List Blk → Outcome (List Bool)
  | [] => .ok []
  | b :: bs => do
    let r ← truthRow S b vars
    let rs ← truthRows S vars bs
    .ok (r ++ rs)

/-- The truth table, src/io/Peridigm_OutputManager_ExodusII.cpp:836-871: a vector of
`blocks->size() * num_element_vars` zeros, filled without a test of the index. -/
def truthTable (S : Site) (vars : List Var) (blocks : List Blk) (n : Nat) (haveData : Bool) :
    Outcome (List Bool) :=
  if n > 0 && haveData then do
    let rows ← truthRows S vars blocks
    if rows.length ≤ blocks.length * n then
      .ok (rows ++ List.replicate (blocks.length * n - rows.length) false)
    else .ub
  else .ok []

/-- `initializeExodusDatabase`, src/io/Peridigm_OutputManager_ExodusII.cpp:469-900. -/
def initializeDatabase (S : Site) (vars : List Var) (blocks : List Blk) :
    Outcome (Header × Names) := do
  let sets ← exodusNodeSets S.owned S.nodeSets
  let haveData := !S.owned.isEmpty
  let setNames ← copyNames (sets.map Prod.fst)
  if blocks.isEmpty then .fail .terminate else
  let blockNames ← copyNames (blocks.map Blk.name)
  let elemMap ← elementMap S.owned blocks
  let N ← Names.assignAll ⟨Index.empty, Index.empty, Index.empty⟩ vars
  let globalNames ← N.global.table haveData
  let nodeNames ← N.node.table haveData
  let elemNames ← N.elem.table haveData
  let truth ← truthTable S vars blocks N.elem.map.length haveData
  let concat := concatSets sets 0 0
  .ok ({ coords := (List.range S.owned.length).map fun i => ![S.x (3 * i), S.x (3 * i + 1),
           S.x (3 * i + 2)]
         blocks := blocks.map fun b => (b.id, b.gids.length)
         blockNames := blockNames
         conn := connectivity S.owned blocks
         nodeMap := S.owned.map (· + 1)
         elemMap := elemMap
         sets := concat.1
         setNodes := concat.2
         setNames := setNames
         globalNames := globalNames
         nodeNames := nodeNames
         elemNames := elemNames
         truth := truth }, N)

/-- One pass of the loop that numbers the variables of a database with global data only,
src/io/Peridigm_OutputManager_ExodusII.cpp:1001-1020. -/
def Index.assignGlobal (s : Index) (v : Var) : Outcome Index :=
  match v.spec.length with
  | .scalar => .ok (s.addAll [v.name])
  | .vector => .ok (s.addAll [v.name ++ "X", v.name ++ "Y", v.name ++ "Z"])
  | _ => if v.spec.relation = .element then .ok s else .fail .invalidArgument

/-- The loop, src/io/Peridigm_OutputManager_ExodusII.cpp:999-1021. -/
def Index.assignGlobals (s : Index) : List Var → Outcome Index
  | [] => .ok s
  | v :: vs => do
    let s' ← s.assignGlobal v
    s'.assignGlobals vs

/-- `initializeExodusDatabaseWithOnlyGlobalData`,
src/io/Peridigm_OutputManager_ExodusII.cpp:902-1050: one node at the origin, one element in block
1. -/
def initializeGlobalDatabase (vars : List Var) : Outcome (Header × Names) := do
  let g ← Index.empty.assignGlobals vars
  let names ← g.table true
  .ok ({ coords := [![0, 0, 0]]
         blocks := [(1, 1)]
         blockNames := []
         conn := fun id => if id = 1 then some [1] else none
         nodeMap := [1]
         elemMap := [1]
         sets := []
         setNodes := []
         setNames := []
         globalNames := names
         nodeNames := []
         elemNames := []
         truth := [] }, ⟨g, Index.empty, Index.empty⟩)

/-! ## One step -/

/-- The temporary arrays of `write` and the records of the file,
src/io/Peridigm_OutputManager_ExodusII.cpp:259-273. -/
structure Work where
  x : Nat → ℝ
  y : Nat → ℝ
  z : Nat → ℝ
  globals : List ℝ
  index : Nat
  file : Records

/-- `globals[globalsIndex++] = value`, src/io/Peridigm_OutputManager_ExodusII.cpp:285-301. -/
def Work.putGlobal (w : Work) (value : ℝ) : Outcome Work :=
  if w.index < w.globals.length then
    .ok { w with globals := w.globals.set w.index value, index := w.index + 1 }
  else .ub

/-- `blocks->begin()->getData(...)`, src/io/Peridigm_OutputManager_ExodusII.cpp:285-301;
`DataManager::getData` throws `RangeError` for a field that is not there,
src/core/Peridigm_DataManager.cpp:541-573. -/
def firstData (blocks : List Blk) (v : Var) : Outcome (Nat → ℝ) :=
  match blocks with
  | [] => .ub
  | b :: _ =>
    match b.data v.spec.id (if v.spec.temporal = .constant then .none else .np1) with
    | none => .fail .rangeError
    | some d => .ok d

/-- The branch for global variables, src/io/Peridigm_OutputManager_ExodusII.cpp:281-308. -/
def writeGlobal (h : Header) (s : Nat) (blocks : List Blk) (v : Var) (w : Work) :
    Outcome Work := do
  let w' ← (match v.spec.length with
    | .scalar =>
      if w.index < w.globals.length then do
        let d ← firstData blocks v
        w.putGlobal (d 0)
      else .fail .invalidArgument
    | .vector =>
      if w.index < w.globals.length then do
        let d ← firstData blocks v
        let w1 ← w.putGlobal (d 0)
        let w2 ← w1.putGlobal (d 1)
        w2.putGlobal (d 2)
      else .fail .invalidArgument
    | _ => .fail .invalidArgument)
  let file ← w'.file.putGlobals h s w'.globals
  .ok { w' with file := file }

/-- `xptr[msLID] = block_ptr[stride*j+c]` for the points of a block, from position `j` on,
src/io/Peridigm_OutputManager_ExodusII.cpp:322-339: `-1` for a point that the processor does not
own is an index outside the array of `n` entries. -/
def scatter (owned : List Nat) (n : Nat) (d : Nat → ℝ) (stride c : Nat) :
    List Nat → Nat → (Nat → ℝ) → Outcome (Nat → ℝ)
  | [], _, buf => .ok buf
  | g :: gs, j, buf =>
    match lid owned g with
    | none => .ub
    | some l =>
      if l < n then scatter owned n d stride c gs (j + 1) (Function.update buf l (d (stride * j + c)))
      else .ub

/-- The loop over the blocks for a nodal variable,
src/io/Peridigm_OutputManager_ExodusII.cpp:311-340.  The three arrays of a vector are filled one
after the other. -/
def scatterBlocks (S : Site) (n : Nat) (v : Var) : List Blk → Work → Outcome Work
  | [], w => .ok w
  | b :: bs, w =>
    match b.data v.spec.id (stepOf v.spec.temporal) with
    | none => .fail .rangeError
    | some d => do
      let w' ← (match v.spec.length with
        | .scalar => do
          let x ← scatter S.owned n d 1 0 b.gids 0 w.x
          .ok { w with x := x }
        | .vector => do
          let x ← scatter S.owned n d 3 0 b.gids 0 w.x
          let y ← scatter S.owned n d 3 1 b.gids 0 w.y
          let z ← scatter S.owned n d 3 2 b.gids 0 w.z
          .ok { w with x := x, y := y, z := z }
        | _ => .ok w)
      scatterBlocks S n v bs w'

/-- The first `n` entries of a temporary array. -/
def entries (n : Nat) (buf : Nat → ℝ) : List ℝ := (List.range n).map buf

/-- The branch for nodal variables, src/io/Peridigm_OutputManager_ExodusII.cpp:310-358. -/
def writeNode (S : Site) (N : Names) (h : Header) (n s : Nat) (blocks : List Blk) (v : Var)
    (w : Work) : Outcome Work := do
  let w' ← scatterBlocks S n v blocks w
  match v.spec.length with
  | .scalar => do
    let f ← w'.file.putNodal h s (N.node.get v.name) (entries n w'.x)
    .ok { w' with file := f }
  | .vector => do
    let f ← w'.file.putNodal h s (N.node.get (v.name ++ "X")) (entries n w'.x)
    let f ← f.putNodal h s (N.node.get (v.name ++ "Y")) (entries n w'.y)
    let f ← f.putNodal h s (N.node.get (v.name ++ "Z")) (entries n w'.z)
    .ok { w' with file := f }
  | _ => .ok w'

/-- `xptr[j] = value j` for the elements of a block, src/io/Peridigm_OutputManager_ExodusII.cpp:368,
374, 394-398, 421-422, 444-445: beyond the array of `n` entries when the block has more points. -/
def fillBuffer (n m : Nat) (value : Nat → ℝ) (buf : Nat → ℝ) : Outcome (Nat → ℝ) :=
  if m ≤ n then .ok (fun j => if j < m then value j else buf j) else .ub

/-- The loops over the components of a tensor and of a field of N components,
src/io/Peridigm_OutputManager_ExodusII.cpp:424-432, 446-454. -/
def writeComponents (N : Names) (h : Header) (n s : Nat) (b : Blk) (v : Var) (d : Nat → ℝ)
    (stride : Nat) : List String → Nat → Work → Outcome Work
  | [], _, w => .ok w
  | suffix :: rest, c, w => do
    let x ← fillBuffer n b.gids.length (fun j => d (stride * j + c)) w.x
    let f ← w.file.putElem h s (N.elem.get (v.name ++ suffix)) b.id (entries b.gids.length x)
    writeComponents N h n s b v d stride rest (c + 1) { w with x := x, file := f }

/-- The body of the loop over the blocks for an element variable,
src/io/Peridigm_OutputManager_ExodusII.cpp:364-457. -/
def writeElementBlock (S : Site) (N : Names) (h : Header) (n s : Nat) (v : Var) (b : Blk) (w : Work) :
    Outcome Work :=
  if b.gids.length = 0 then .ok w
  else if v.spec.id = S.idField then do
    let x ← fillBuffer n b.gids.length (fun j => (((b.gids.getD j 0 : Nat) : ℝ) + 1)) w.x
    let f ← w.file.putElem h s (N.elem.get v.name) b.id (entries b.gids.length x)
    .ok { w with x := x, file := f }
  else if v.spec.id = S.procField then do
    let x ← fillBuffer n b.gids.length (fun _ => (S.pid : ℝ)) w.x
    let f ← w.file.putElem h s (N.elem.get v.name) b.id (entries b.gids.length x)
    .ok { w with x := x, file := f }
  else
    match b.data v.spec.id (stepOf v.spec.temporal) with
    | none => .ok w
    | some d =>
      match v.spec.length with
      | .scalar => do
        let f ← w.file.putElem h s (N.elem.get v.name) b.id (entries b.gids.length d)
        .ok { w with file := f }
      | .vector => do
        let x ← fillBuffer n b.gids.length (fun j => d (3 * j)) w.x
        let y ← fillBuffer n b.gids.length (fun j => d (3 * j + 1)) w.y
        let z ← fillBuffer n b.gids.length (fun j => d (3 * j + 2)) w.z
        let f ← w.file.putElem h s (N.elem.get (v.name ++ "X")) b.id (entries b.gids.length x)
        let f ← f.putElem h s (N.elem.get (v.name ++ "Y")) b.id (entries b.gids.length y)
        let f ← f.putElem h s (N.elem.get (v.name ++ "Z")) b.id (entries b.gids.length z)
        .ok { w with x := x, y := y, z := z, file := f }
      | .symmetricTensor => .fail .terminate
      | .fullTensor => writeComponents N h n s b v d 9 tensorSuffix 0 w
      | l => do
        let k ← variableDimension l
        writeComponents N h n s b v d k (numberSuffix.take k) 0 w

/-- The loop over the blocks, src/io/Peridigm_OutputManager_ExodusII.cpp:361-458. -/
def writeElement (S : Site) (N : Names) (h : Header) (n s : Nat) (v : Var) :
    List Blk → Work → Outcome Work
  | [], w => .ok w
  | b :: bs, w => do
    let w' ← writeElementBlock S N h n s v b w
    writeElement S N h n s v bs w'

/-- The body of the loop over the requested variables,
src/io/Peridigm_OutputManager_ExodusII.cpp:275-460. -/
def writeVar (S : Site) (N : Names) (h : Header) (n s : Nat) (blocks : List Blk) (v : Var)
    (w : Work) : Outcome Work :=
  match v.spec.relation with
  | .global => writeGlobal h s blocks v w
  | .node => writeNode S N h n s blocks v w
  | .element => writeElement S N h n s v blocks w
  | _ => .ok w

/-- The loop, src/io/Peridigm_OutputManager_ExodusII.cpp:275-460. -/
def writeVars (S : Site) (N : Names) (h : Header) (n s : Nat) (blocks : List Blk) :
    List Var → Work → Outcome Work
  | [], w => .ok w
  | v :: vs, w => do
    let w' ← writeVar S N h n s blocks v w
    writeVars S N h n s blocks vs w'

/-- `write` behind the test of the output frequency, for the step `s` of the file
(`exodusCount`), src/io/Peridigm_OutputManager_ExodusII.cpp:250-467. -/
def writeStep (S : Site) (N : Names) (h : Header) (vars : List Var) (s : Nat) (time : ℝ)
    (blocks : List Blk) (file : Records) : Outcome Records := do
  let n := if globalDataOnly vars then 1 else S.owned.length
  let w ← writeVars S N h n s blocks vars
    ⟨fun _ => 0, fun _ => 0, fun _ => 0, List.replicate N.global.map.length 0, 0, file.putTime s time⟩
  .ok w.file

/-- The following steps. -/
def writeSteps (S : Site) (N : Names) (h : Header) (vars : List Var) :
    Nat → List (ℝ × List Blk) → Records → Outcome Records
  | _, [], file => .ok file
  | s, (time, blocks) :: rest, file => do
    let file' ← writeStep S N h vars s time blocks file
    writeSteps S N h vars (s + 1) rest file'

/-- The calls of `write` that get past the test of the output frequency: the first one creates the
file, src/io/Peridigm_OutputManager_ExodusII.cpp:233-243.  A database with global data only is
written by the first processor.  The result is the file of this processor, if it has written one. -/
def session (S : Site) (vars : List Var) : List (ℝ × List Blk) → Outcome (Option (Header × Records))
  | [] => .ok none
  | (time, blocks) :: rest =>
    if globalDataOnly vars && !(S.pid == 0) then .ok none
    else do
      let (h, N) ← (if globalDataOnly vars then initializeGlobalDatabase vars
        else initializeDatabase S vars blocks)
      let file ← writeSteps S N h vars 1 ((time, blocks) :: rest) Records.empty
      .ok (some (h, file))

/-! ## Names of files -/

/-- Spaces and periods become underscores, src/io/Peridigm_OutputManager_ExodusII.cpp:475-493,
909-927. -/
def cleanName (base : List Char) : List Char :=
  base.map fun c => if c == ' ' || c == '.' then '_' else c

/-- `setfill('0') << setw(len) << n`, src/io/Peridigm_OutputManager_ExodusII.cpp:502-508. -/
def padded (len n : Nat) : List Char := List.leftpad len '0' (Nat.toDigits 10 n)

/-- The name of the file, src/io/Peridigm_OutputManager_ExodusII.cpp:496-512, 930-932. -/
def fileName (globalOnly : Bool) (base : List Char) (numProc pid : Nat) : List Char :=
  if globalOnly then cleanName base ++ ['.', 'h']
  else if numProc > 1 then
    let len := (Nat.toDigits 10 numProc).length
    cleanName base ++ ['.', 'e'] ++ ['.'] ++ padded len numProc ++ ['.'] ++ padded len pid
  else cleanName base ++ ['.', 'e']

end Verif.Exodus
