import Verif.Storage.InterfaceModel

/-!
# The file of the interfaces (model)

Models the part of `InterfaceData::Initialize` that stores the nodes of the interfaces and
`InterfaceData::InitializeExodusOutput`, src/core/Peridigm_InterfaceData.cpp:74-97, 120-273, on one processor.  The
nodes of the mesh are given by `exodusMeshNodePositions`, a vector with a map.

Simplifications: errors of the Exodus library do not occur, and coordinates are not rounded to `float`.  An integer that
the code makes of the local number -1 of a node that is not in the map is 0.
-/

noncomputable section

namespace Verif.Storage

open Verif Verif.Mech
open scoped Classical

/-- `interfaceNodes` and its map: the entries of all interfaces one after the other, and the number of entries of each.
Models src/core/Peridigm_InterfaceData.cpp:86-97. -/
structure NodeTable where
  sizes : List Nat
  entries : List Nat

/-- The nodes of the interfaces are stored; of each the first `numNodes`, which must be there.
Models src/core/Peridigm_InterfaceData.cpp:86-97. -/
def nodeTable (is : List Interface) : Outcome NodeTable :=
  if ∃ i ∈ is, i.nodes.length < i.count then .ub
  else .ok ⟨is.map (·.count), is.flatMap fun i => i.nodes.take i.count⟩

/-- `FirstPointInElement`. -/
def NodeTable.first (t : NodeTable) (i : Nat) : Nat := (t.sizes.take i).sum

/-- The nodes of the mesh on the processor: global ids in local order, and positions.
Models `exodusMeshNodePositions`, src/core/Peridigm_InterfaceData.cpp:120, 166-172. -/
structure MeshNodes where
  gids : List Nat
  pos : Nat → V3

/-- `LID(node) + 1`.
Models src/core/Peridigm_InterfaceData.cpp:220, 236. -/
def MeshNodes.number (m : MeshNodes) (node : Nat) : Nat := if node ∈ m.gids then m.gids.idxOf node + 1 else 0

/-- The file: coordinates, number maps of nodes and elements, and the connectivity of the blocks of quadrilaterals and
of triangles, whose element types are `"NULL"` if they are empty. -/
structure ShellFile where
  coords : List V3
  nodeMap : List Nat
  elemMap : List Nat
  quads : List (List Nat)
  tris : List (List Nat)
  quadType : String
  triType : String

/-- The connectivity of the block of the elements with `n` nodes, in the loop over the interfaces from `i` on.
Models src/core/Peridigm_InterfaceData.cpp:211-224, 227-240. -/
def blockConnect (t : NodeTable) (m : MeshNodes) (n : Nat) : Nat → List Nat → List (List Nat)
  | _, [] => []
  | i, s :: rest =>
      if s ≠ n then blockConnect t m n (i + 1) rest
      else (((t.entries.drop (t.first i)).take n).map m.number) :: blockConnect t m n (i + 1) rest

/-- `InitializeExodusOutput`.  `start` is the first global id of the interfaces of the processor, which are numbered
in order.  A number of nodes other than three and four ends the program.
Models src/core/Peridigm_InterfaceData.cpp:74, 77, 120-273. -/
def shellFile (start : Nat) (is : List Interface) (m : MeshNodes) : Outcome ShellFile := do
  let t ← nodeTable is
  let numQuads := (t.sizes.filter fun s => s = 4).length
  let numTris := (t.sizes.filter fun s => s = 3).length
  if numQuads + numTris ≠ is.length then .fail .runtimeError
  else
    .ok
      { coords := m.gids.map m.pos
        nodeMap := m.gids.map (· + 1)
        elemMap := (List.range is.length).map fun i => start + i + 1
        quads := blockConnect t m 4 0 t.sizes
        tris := blockConnect t m 3 0 t.sizes
        quadType := if 0 < numQuads then "QUAD4" else "NULL"
        triType := if 0 < numTris then "TRI3" else "NULL" }

end Verif.Storage
