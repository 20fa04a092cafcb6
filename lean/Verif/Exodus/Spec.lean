import Verif.Exodus.Model

/-!
# What a reader finds in the output file

The reader of a file knows names of variables, numbers of steps and identifiers of points; the
functions below look values up with them, using nothing but the contents of the file.
-/

namespace Verif.Exodus

open Verif Verif.Field Verif.Mech

/-- The endings of the names of the components of a field. -/
def endings : Length → List String
  | .scalar => [""]
  | .vector => ["X", "Y", "Z"]
  | .fullTensor => ["XX", "XY", "XZ", "YX", "YY", "YZ", "ZX", "ZY", "ZZ"]
  | .length1 => ["_1"]
  | .length2 => ["_1", "_2"]
  | .length3 => ["_1", "_2", "_3"]
  | .length4 => ["_1", "_2", "_3", "_4"]
  | .length5 => ["_1", "_2", "_3", "_4", "_5"]
  | .length6 => ["_1", "_2", "_3", "_4", "_5", "_6"]
  | .length7 => ["_1", "_2", "_3", "_4", "_5", "_6", "_7"]
  | .length8 => ["_1", "_2", "_3", "_4", "_5", "_6", "_7", "_8"]
  | .length9 => ["_1", "_2", "_3", "_4", "_5", "_6", "_7", "_8", "_9"]
  | .symmetricTensor => []
  | .undefined => []

/-- The names of the components of a variable. -/
def Var.components (v : Var) : List String := (endings v.spec.length).map (v.name ++ ·)

/-- The names of all components of the variables of one kind, in the order of the request. -/
def kindNames (r : Relation) (vars : List Var) : List String :=
  (vars.filter fun v => v.spec.relation = r).flatMap Var.components

/-- Component `c` of a field at the point in position `j` of a block; `none` when the block does not
have the field. -/
def fieldValue (b : Blk) (v : Var) (c j : Nat) : Option ℝ :=
  (b.data v.spec.id (stepOf v.spec.temporal)).map
    fun d => d ((endings v.spec.length).length * j + c)

/-- The value of component `c` of a variable for the element in position `j` of a block: the field
`Element_Id` is the identifier counted from 1 and `Proc_Num` the rank, in every block. -/
def elementValue (S : Site) (b : Blk) (v : Var) (c j : Nat) : Option ℝ :=
  if v.spec.id = S.idField then (b.gids[j]?).map fun g => ((g + 1 : Nat) : ℝ)
  else if v.spec.id = S.procField then some (S.pid : ℝ)
  else fieldValue b v c j

/-- The identifiers of the points of all blocks. -/
def allIds (blocks : List Blk) : List Nat := blocks.flatMap Blk.gids

/-- The value of a nodal variable at the point with identifier `g`: files count points from 1. -/
def readNode (h : Header) (r : Records) (step : Nat) (name : String) (g : Nat) : Option ℝ := do
  let k ← h.nodeNames.idxOf? name
  let p ← h.nodeMap.idxOf? (g + 1)
  let vals ← r.nodal step (k + 1)
  vals[p]?

/-- The block of the element in a position of the file and its position in the block: files number
elements through, block after block. -/
def locate : List (Int × Nat) → Nat → Option (Int × Nat)
  | [], _ => none
  | (id, m) :: rest, p => if p < m then some (id, p) else locate rest (p - m)

/-- The value of an element variable at the point with identifier `g`. -/
def readElem (h : Header) (r : Records) (step : Nat) (name : String) (g : Nat) : Option ℝ := do
  let k ← h.elemNames.idxOf? name
  let p ← h.elemMap.idxOf? (g + 1)
  let (id, j) ← locate h.blocks p
  let vals ← r.elem step (k + 1) id
  vals[j]?

/-- The value of a global variable. -/
def readGlobal (h : Header) (r : Records) (step : Nat) (name : String) : Option ℝ := do
  let k ← h.globalNames.idxOf? name
  let vals ← r.globals step
  vals[k]?

/-- The position of the point with identifier `g`. -/
def readPosition (h : Header) (g : Nat) : Option V3 := do
  let p ← h.nodeMap.idxOf? (g + 1)
  h.coords[p]?

/-- The identifier, counted from 1, of the node of the element with identifier `g`. -/
def readElementNode (h : Header) (g : Nat) : Option Nat := do
  let p ← h.elemMap.idxOf? (g + 1)
  let (id, j) ← locate h.blocks p
  let nodes ← h.conn id
  let node ← nodes[j]?
  if node = 0 then none else h.nodeMap[node - 1]?

/-- The block of the element with identifier `g`. -/
def readElementBlock (h : Header) (g : Nat) : Option Int := do
  let p ← h.elemMap.idxOf? (g + 1)
  let (id, _) ← locate h.blocks p
  some id

/-- The identifiers, counted from 1, of the nodes of the node set with a given name. -/
def readNodeSet (h : Header) (name : String) : Option (List (Option Nat)) := do
  let k ← h.setNames.idxOf? name
  let (_, count, first) ← h.sets[k]?
  some (((h.setNodes.drop first).take count).map fun node =>
    if node = 0 then none else h.nodeMap[node - 1]?)

/-- The entry of the truth table for a block and a variable: does the file hold values of the
variable for the block? -/
def readTruth (h : Header) (id : Int) (name : String) : Option Bool := do
  let i ← (h.blocks.map Prod.fst).idxOf? id
  let k ← h.elemNames.idxOf? name
  h.truth[i * h.elemNames.length + k]?

/-- The blocks have distinct identifiers and each point is in one place of one block. -/
def Proper (blocks : List Blk) : Prop :=
  (blocks.map Blk.id).Nodup ∧ (allIds blocks).Nodup

/-- Two states of the same blocks: the fields may differ, identifiers and points do not. -/
def SameBlocks (a b : List Blk) : Prop :=
  a.map (fun b => (b.id, b.gids)) = b.map (fun b => (b.id, b.gids))

/-- The two special fields are scalars per element (they are registered that way,
src/core/Peridigm.cpp). -/
def SpecialScalars (S : Site) (vars : List Var) : Prop :=
  ∀ v ∈ vars, v.spec.id = S.idField ∨ v.spec.id = S.procField → v.spec.length = .scalar

/-- The kinds a length is allowed for. -/
def Allowed (v : Var) : Prop :=
  v.spec.length ≠ .symmetricTensor ∧ v.spec.length ≠ .undefined ∧
    (v.spec.length = .scalar ∨ v.spec.length = .vector ∨ v.spec.relation = .element)

/-- The fields of the request are there: nodal fields in every block, global ones in the first. -/
def Present (vars : List Var) (blocks : List Blk) : Prop :=
  (∀ v ∈ vars, v.spec.relation = .node → ∀ b ∈ blocks,
    (b.data v.spec.id (stepOf v.spec.temporal)).isSome) ∧
  (∀ v ∈ vars, v.spec.relation = .global → ∃ b, blocks.head? = some b ∧
    (b.data v.spec.id (stepOf v.spec.temporal)).isSome)

/-- The request itself: every field has a kind that can be written, the names of the components are
different and at most 32 characters long. -/
def GoodRequest (S : Site) (vars : List Var) : Prop :=
  SpecialScalars S vars ∧ (∀ v ∈ vars, Allowed v ∧ v.spec.temporal ≠ .undefined) ∧
  ∀ r, (kindNames r vars).Nodup ∧ ∀ a ∈ kindNames r vars, a.utf8ByteSize ≤ maxStr

/-- A processor, its blocks and its node sets. -/
def GoodSite (S : Site) (blocks : List Blk) : Prop :=
  blocks ≠ [] ∧ S.owned ≠ [] ∧ Proper blocks ∧ (∀ g ∈ allIds blocks, g ∈ S.owned) ∧
  (∀ s ∈ S.nodeSets, s.1.utf8ByteSize ≤ maxStr ∧ ∀ g ∈ s.2, g ∈ S.owned) ∧
  ∀ b ∈ blocks, b.name.utf8ByteSize ≤ maxStr

end Verif.Exodus
