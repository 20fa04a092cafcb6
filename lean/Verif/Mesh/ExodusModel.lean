import Verif.Geometry.Model
import Verif.Neigh.Model

/-!
# Model of reading an Exodus mesh

`ExodusDiscretization::loadData`, /repo/src/io/discretization/Peridigm_ExodusDiscretization.cpp:209-590, on one
processor.  What the Exodus library returns for a file is the structure `Genesis`; errors of the library, the
choice of the file name (211-235) and the messages are not modelled.  Ids in the file start from one.
Numbers are exact.
-/

noncomputable section

namespace Verif.Mesh

open Verif Verif.Mech Verif.Neigh Verif.Geometry
open scoped Classical

/-- A block of elements of the file, as `ex_get_name`, `ex_get_elem_block`, `ex_get_elem_conn` and
`ex_get_elem_attr` return it; the arrays are flat.
Models the variables of src/io/discretization/Peridigm_ExodusDiscretization.cpp:345-392. -/
structure ElemBlock where
  id : Int
  name : String
  elemType : String
  numElem : Nat
  nodesPerElem : Nat
  conn : List Nat
  numAttr : Nat
  attributes : List ℝ

/-- A node set of the file; the name is empty if there is none.
Models the variables of src/io/discretization/Peridigm_ExodusDiscretization.cpp:525-552. -/
structure NodeSet where
  id : Int
  name : String
  nodes : List Nat

/-- The file of this processor.
Models the variables of src/io/discretization/Peridigm_ExodusDiscretization.cpp:245-313. -/
structure Genesis where
  coords : List V3
  nodeMap : List Nat
  elemMap : List Nat
  auxNodeMaps : List (String × List Nat)
  auxElemMaps : List (String × List Nat)
  blocks : List ElemBlock
  nodeSets : List NodeSet

/-- The numbering used: the one of the file, or the additional one called "original_global_id_map"; counted from
zero.
Models src/io/discretization/Peridigm_ExodusDiscretization.cpp:257-297 (elements) and 257-313 (nodes). -/
def chooseMap (map : List Nat) (aux : List (String × List Nat)) : Outcome (List Nat) :=
  match aux with
  | [] => .ok (map.map (· - 1))
  | [(name, m)] => if name ≠ "original_global_id_map" then .fail .terminate else .ok (m.map (· - 1))
  | _ :: _ :: _ => .fail .terminate

/-- The name of a block.
Models src/io/discretization/Peridigm_ExodusDiscretization.cpp:350-359. -/
def ElemBlock.title (b : ElemBlock) : String :=
  if b.name.length = 0 then "block_" ++ toString b.id else b.name

/-- `ExodusElementType`.
Models src/io/discretization/Peridigm_ExodusDiscretization.hpp:63. -/
inductive Kind where
  | sphere
  | tet
  | hex
  deriving DecidableEq

/-- `to_upper` (for the locale "C" and ASCII).
Models src/core/Peridigm_Enums.cpp:307-311. -/
def upper (text : String) : String := String.ofList (text.toList.map Char.toUpper)

/-- The type of the elements of a block, from the text in the file.
Models src/io/discretization/Peridigm_ExodusDiscretization.cpp:373-384. -/
def elementKind (text : String) : Outcome Kind :=
  if upper text = "SPHERE" then .ok .sphere
  else if upper text = "TET" ∨ upper text = "TETRA" ∨ upper text = "TET4" ∨ upper text = "TET10" then
    .ok .tet
  else if upper text = "HEX" ∨ upper text = "HEX8" ∨ upper text = "HEX20" then .ok .hex
  else .fail .runtimeError

/-- `conn[iElem*numNodesPerElem + i] - 1`; a zero in the file would give a negative index.
Models src/io/discretization/Peridigm_ExodusDiscretization.cpp:401 (and 490, 514). -/
def nodeId (b : ElemBlock) (iElem i : Nat) : Outcome Nat :=
  match readAt b.conn (iElem * b.nodesPerElem + i) with
  | .ok 0 => .ub
  | .ok (c + 1) => .ok c
  | .fail e => .fail e
  | .ub => .ub

/-- `nodeCoordinates`: the positions of the nodes of an element, from the `i`-th on.
Models src/io/discretization/Peridigm_ExodusDiscretization.cpp:399-405. -/
def nodePositions (coords : List V3) (b : ElemBlock) (iElem : Nat) : Nat → Nat → Outcome (List V3)
  | _, 0 => .ok []
  | i, m + 1 => do
    let c ← nodeId b iElem i
    let x ← readAt coords c
    let rest ← nodePositions coords b iElem (i + 1) m
    .ok (x :: rest)

/-- The first `k` entries of `nodeCoordinates`; fewer would be read beyond its end. -/
def firstNodes (k : Nat) (ps : List V3) : Outcome (Fin k → V3) :=
  if k ≤ ps.length then .ok fun i => ps.getD i 0 else .ub

/-- An element becomes a point: its position and volume.  The side nodes of elements with ten or twenty nodes are
not used.
Models src/io/discretization/Peridigm_ExodusDiscretization.cpp:410-449. -/
def toPoint (kind : Kind) (b : ElemBlock) (iElem : Nat) (ps : List V3) : Outcome (V3 × ℝ) :=
  match kind with
  | .sphere => do
    let x ← readAt ps 0
    let v ← readAt b.attributes (iElem * b.numAttr + 1)
    .ok (x, v)
  | .tet => do
    let n ← firstNodes 4 ps
    tetCentroidAndVolume n
  | .hex => do
    let n ← firstNodes 8 ps
    hexCentroidAndVolume n

/-- What is stored for a point in `blockID`, `cellVolume` and `initialX`. -/
structure PointData where
  block : Int
  volume : ℝ
  x : V3

/-- What has been read so far: `localElemId`, the vectors, and the map from names of blocks to ids of elements
(in the order of the file; the code keeps it sorted by name). -/
structure MeshState where
  next : Nat
  points : List PointData
  blocks : List (String × List Nat)

/-- One element: the id of the point is put into the list of the block, its data at its place in the vectors.
Models src/io/discretization/Peridigm_ExodusDiscretization.cpp:398-457. -/
def loadElement (g : Genesis) (ids : List Nat) (kind : Kind) (b : ElemBlock) (iElem next : Nat)
    (points : List PointData) : Outcome (Nat × List PointData) := do
  let ps ← nodePositions g.coords b iElem 0 b.nodesPerElem
  let gid ← readAt ids next
  let p ← toPoint kind b iElem ps
  let lid ← lidOf ids gid
  if lid < points.length then .ok (gid, points.set lid ⟨b.id, p.2, p.1⟩) else .ub

/-- The loop over the elements of a block, `m` of them from `iElem` on.
Models src/io/discretization/Peridigm_ExodusDiscretization.cpp:394-458. -/
def loadElements (g : Genesis) (ids : List Nat) (kind : Kind) (b : ElemBlock) :
    Nat → Nat → Nat → List PointData → Outcome (List Nat × List PointData)
  | 0, _, _, points => .ok ([], points)
  | m + 1, iElem, next, points => do
    let r ← loadElement g ids kind b iElem next points
    let rest ← loadElements g ids kind b m (iElem + 1) (next + 1) r.2
    .ok (r.1 :: rest.1, rest.2)

/-- The loop over the blocks.  The type of a block without elements is not looked at.
Models src/io/discretization/Peridigm_ExodusDiscretization.cpp:344-459. -/
def loadBlock (g : Genesis) (ids : List Nat) (s : MeshState) (b : ElemBlock) : Outcome MeshState :=
  if b.title ∈ s.blocks.map Prod.fst then .fail .terminate
  else if b.numElem = 0 then .ok { s with blocks := s.blocks ++ [(b.title, [])] }
  else do
    let kind ← elementKind b.elemType
    let r ← loadElements g ids kind b b.numElem 0 s.next s.points
    .ok ⟨s.next + b.numElem, r.2, s.blocks ++ [(b.title, r.1)]⟩

/-- The elements of the mesh: `ids` are the global ids of this processor's elements; the vectors start with
zeros.
Models src/io/discretization/Peridigm_ExodusDiscretization.cpp:327-459. -/
def loadMesh (g : Genesis) (ids : List Nat) : Outcome MeshState :=
  g.blocks.foldlM (loadBlock g ids) ⟨0, List.replicate ids.length ⟨0, 0, fun _ => 0⟩, []⟩

/-! ### Node sets -/

/-- The nodes of an element, from the `i`-th on, each get the element into their list.
Models src/io/discretization/Peridigm_ExodusDiscretization.cpp:513-516. -/
def addToNodes (b : ElemBlock) (iElem local_ : Nat) : Nat → Nat → List (List Nat) → Outcome (List (List Nat))
  | _, 0, lists => .ok lists
  | i, m + 1, lists => do
    let c ← nodeId b iElem i
    let l ← readAt lists c
    addToNodes b iElem local_ (i + 1) m (lists.set c (l ++ [local_]))

/-- The elements of a block, `m` of them from `iElem` on.
Models src/io/discretization/Peridigm_ExodusDiscretization.cpp:512-517. -/
def addElements (b : ElemBlock) : Nat → Nat → Nat → List (List Nat) → Outcome (List (List Nat))
  | 0, _, _, lists => .ok lists
  | m + 1, iElem, next, lists => do
    let lists ← addToNodes b iElem next 0 b.nodesPerElem lists
    addElements b m (iElem + 1) (next + 1) lists

/-- `elementsThatNodeBelongsTo`, block by block.
Models src/io/discretization/Peridigm_ExodusDiscretization.cpp:500-519. -/
def addBlocks : List ElemBlock → Nat → List (List Nat) → Outcome (List (List Nat))
  | [], _, lists => .ok lists
  | b :: bs, next, lists => do
    let lists ← addElements b b.numElem 0 next lists
    addBlocks bs (next + b.numElem) lists

/-- The elements of one node are put into the set, unless they are in it.
Models src/io/discretization/Peridigm_ExodusDiscretization.cpp:561-566. -/
def insertElements (ids : List Nat) : List Nat → List Nat → Outcome (List Nat)
  | [], set => .ok set
  | e :: es, set => do
    let gid ← readAt ids e
    insertElements ids es (if gid ∈ set then set else set ++ [gid])

/-- The loop over the nodes of a set.
Models src/io/discretization/Peridigm_ExodusDiscretization.cpp:553-567. -/
def convertSet (ids : List Nat) (lists : List (List Nat)) : List Nat → List Nat → Outcome (List Nat)
  | [], set => .ok set
  | 0 :: _, _ => .ub
  | (c + 1) :: nodes, set => do
    let es ← readAt lists c
    let set ← insertElements ids es set
    convertSet ids lists nodes set

/-- The name of a node set.
Models src/io/discretization/Peridigm_ExodusDiscretization.cpp:531-538. -/
def NodeSet.title (s : NodeSet) : String :=
  if s.name.length = 0 then "nodelist_" ++ toString s.id else s.name

/-- The names are registered first; one that occurs twice ends the program.
Models src/io/discretization/Peridigm_ExodusDiscretization.cpp:527-542. -/
def checkTitles : List NodeSet → List String → Outcome Unit
  | [], _ => .ok ()
  | s :: ss, seen => if s.title ∈ seen then .fail .terminate else checkTitles ss (seen ++ [s.title])

/-- The sets are converted one by one (in the order of their names in the code; the sets do not depend on each
other).
Models src/io/discretization/Peridigm_ExodusDiscretization.cpp:543-569. -/
def convertSets (ids : List Nat) (lists : List (List Nat)) : List NodeSet → Outcome (List (String × List Nat))
  | [] => .ok []
  | s :: ss => do
    let set ← convertSet ids lists s.nodes []
    let rest ← convertSets ids lists ss
    .ok ((s.title, set) :: rest)

/-- The node sets of the mesh of points.
Models src/io/discretization/Peridigm_ExodusDiscretization.cpp:500-570. -/
def loadNodeSets (g : Genesis) (ids : List Nat) : Outcome (List (String × List Nat)) := do
  let lists ← addBlocks g.blocks 0 (List.replicate g.coords.length [])
  let _ ← checkTitles g.nodeSets []
  convertSets ids lists g.nodeSets

end Verif.Mesh
