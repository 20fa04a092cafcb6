import Verif.Mesh.ExodusModel
import Verif.Search.GlobalModel

/-!
# Model of neighborhoods of elements that intersect the horizon

The part of the constructor of `ExodusDiscretization` for "Compute Element-Horizon Intersections",
/repo/src/io/discretization/Peridigm_ExodusDiscretization.cpp:72-204, with `loadData`:460-498,
`getExodusMeshNodePositions`, `computeMaxElementDimension` and
`removeNonintersectingNeighborsFromNeighborList`, 861-1050.  The stored mesh is modelled on one processor;
in the loops over several processors the nodes of an element are a function of its global id.  That this is what every
processor finds in its own mesh and the ghosts that `ghostExodusMeshData` (1052-1096) copies is C246 (`GhostModel.lean`).
-/

noncomputable section

namespace Verif.Mesh

open Verif Verif.Mech Verif.Neigh Verif.Geometry Verif.Redist Verif.Filter Verif.Search
open scoped Classical

/-- `storeExodusMesh`, `computeIntersections` and `constructInterfaces` from the parameters "Store Exodus Mesh",
"Compute Element-Horizon Intersections" and "Construct Interfaces", each present or not.
Models src/io/discretization/Peridigm_ExodusDiscretization.cpp:77-79 and 98-110. -/
def meshFlags (store compute interfaces : Option Bool) : Bool × Bool × Bool :=
  let s0 := match store with
    | some s => s
    | none => false
  let c1 := match compute with
    | some c => (c, true)
    | none => (false, s0)
  match interfaces with
  | some i => (i, c1.1, i)
  | none => (c1.2, c1.1, false)

/-- The stored mesh: ids of the elements, their numbers of nodes, the global ids of their nodes one after the
other, and the nodes with their positions.
Models `exodusMeshElementConnectivity` and `exodusMeshNodePositions`,
src/io/discretization/Peridigm_ExodusDiscretization.hpp:212-215. -/
structure StoredMesh where
  elems : List Nat
  sizes : List Nat
  conn : List Nat
  nodes : List Nat
  positions : List V3

/-- The nodes of an element, from the `i`-th on.  (For a node that the processor does not have the code would store
-1 and later read before the vector.)
Models src/io/discretization/Peridigm_ExodusDiscretization.cpp:489-493. -/
def connNodes (nodeIds : List Nat) (b : ElemBlock) (iElem : Nat) : Nat → Nat → Outcome (List Nat)
  | _, 0 => .ok []
  | i, m + 1 => do
    let c ← nodeId b iElem i
    let gid ← readAt nodeIds c
    let rest ← connNodes nodeIds b iElem (i + 1) m
    .ok (gid :: rest)

/-- Models src/io/discretization/Peridigm_ExodusDiscretization.cpp:488-494. -/
def connElements (nodeIds : List Nat) (b : ElemBlock) : Nat → Nat → Outcome (List Nat)
  | _, 0 => .ok []
  | iElem, m + 1 => do
    let here ← connNodes nodeIds b iElem 0 b.nodesPerElem
    let rest ← connElements nodeIds b (iElem + 1) m
    .ok (here ++ rest)

/-- Models src/io/discretization/Peridigm_ExodusDiscretization.cpp:480-496. -/
def connBlocks (nodeIds : List Nat) : List ElemBlock → Outcome (List Nat)
  | [] => .ok []
  | b :: bs => do
    let here ← connElements nodeIds b 0 b.numElem
    let rest ← connBlocks nodeIds bs
    .ok (here ++ rest)

/-- The mesh is stored.
Models src/io/discretization/Peridigm_ExodusDiscretization.cpp:315-325 and 461-498. -/
def storeMesh (g : Genesis) (ids nodeIds : List Nat) : Outcome StoredMesh := do
  let conn ← connBlocks nodeIds g.blocks
  .ok ⟨ids, g.blocks.flatMap fun b => List.replicate b.numElem b.nodesPerElem, conn, nodeIds, g.coords⟩

/-- The positions of some nodes.
Models src/io/discretization/Peridigm_ExodusDiscretization.cpp:878-884. -/
def positionsOf (m : StoredMesh) : List Nat → Outcome (List V3)
  | [] => .ok []
  | gid :: gids => do
    let l ← lidOf m.nodes gid
    let x ← readAt m.positions l
    let rest ← positionsOf m gids
    .ok (x :: rest)

/-- `getExodusMeshNodePositions`.
Models src/io/discretization/Peridigm_ExodusDiscretization.cpp:861-886. -/
def exodusNodes (m : StoredMesh) (gid : Nat) : Outcome (List V3) :=
  if gid ∉ m.elems then .fail .terminate
  else do
    let lid ← lidOf m.elems gid
    let n ← readAt m.sizes lid
    let conn ← readIds m.conn (m.sizes.take lid).sum n
    positionsOf m conn

/-! ### The largest element -/

/-- The square of the distance of two nodes.
Models src/io/discretization/Peridigm_ExodusDiscretization.cpp:922-925. -/
def squareOf (ps : List V3) (i j : Nat) : ℝ :=
  let d := ps.getD i 0 - ps.getD j 0
  d 0 * d 0 + d 1 * d 1 + d 2 * d 2

/-- The loops over two of the first `k` nodes of an element; `m` is the largest square so far.
Models src/io/discretization/Peridigm_ExodusDiscretization.cpp:919-930. -/
def pairMax (ps : List V3) (k : Nat) (m : ℝ) : ℝ :=
  ((List.range k).flatMap fun i => (List.range' i (k - i)).map fun j => (i, j)).foldl
    (fun (m : ℝ) (t : Nat × Nat) =>
      if t.1 ≠ t.2 then if squareOf ps t.1 t.2 > m then squareOf ps t.1 t.2 else m else m) m

/-- One element.  The value computed for a sphere (908-911) is not used.
Models src/io/discretization/Peridigm_ExodusDiscretization.cpp:898-932. -/
def elementDimension (nodesOf : Nat → Outcome (List V3)) (m : ℝ) (gid : Nat) : Outcome ℝ := do
  let ps ← nodesOf gid
  if ps.length ≠ 8 ∧ ps.length ≠ 4 ∧ ps.length ≠ 1 ∧ ps.length ≠ 10 ∧ ps.length ≠ 20 then .fail .terminate
  else if ps.length = 1 then .ok m
  else .ok (pairMax ps (if ps.length = 8 ∨ ps.length = 20 then 8 else 4) m)

/-- The elements of one processor.
Models src/io/discretization/Peridigm_ExodusDiscretization.cpp:891-935. -/
def localDimension (nodesOf : Nat → Outcome (List V3)) (own : List Nat) : Outcome ℝ := do
  let m ← own.foldlM (elementDimension nodesOf) 0
  .ok (Real.sqrt m)

/-- `computeMaxElementDimension`; the values of the processors are not negative, so their maximum may start from
zero.
Models src/io/discretization/Peridigm_ExodusDiscretization.cpp:888-942. -/
def maxElementDimension (store : Bool) (nodesOf : Nat → Outcome (List V3)) (ranks : List (List Nat)) : Outcome ℝ :=
  if store = false then .fail .terminate
  else do
    let ls ← allOk (localDimension nodesOf) ranks
    .ok (ls.foldl max 0)

/-! ### The neighbors that intersect the horizon -/

/-- The neighbors of one point, by global id: kept are those that are not outside the sphere.
Models src/io/discretization/Peridigm_ExodusDiscretization.cpp:967-1012. -/
def keepNeighbors (nodesOf : Nat → Outcome (List V3)) (x : Nat → V3) (h : Nat → ℝ) (owned : List Nat) (elem : Nat) :
    List Nat → Outcome (List Nat)
  | [] => .ok []
  | gid :: gids => do
    let self ← readAt owned elem
    let ps ← nodesOf gid
    if ps.length ≠ 8 then .fail .terminate
    else do
      let n ← firstNodes 8 ps
      let s ← hexahedronSphere n (x self) (h self)
      let rest ← keepNeighbors nodesOf x h owned elem gids
      .ok (if s ≠ .outside then gid :: rest else rest)

/-- The loop over the list of neighbors.  Every pass advances, so as many passes as entries suffice.
Models src/io/discretization/Peridigm_ExodusDiscretization.cpp:960-1015. -/
def refineLoop (nodesOf : Nat → Outcome (List V3)) (x : Nat → V3) (h : Nat → ℝ) (c : NbPart) :
    Nat → Nat → Nat → Outcome (List (List Nat))
  | 0, pos, _ => if pos < c.list.length then .ub else .ok []
  | fuel + 1, pos, elem =>
    if pos < c.list.length then do
      let k ← readAt c.list pos
      let lids ← readIds c.list (pos + 1) k
      let gids ← gidsOf c.overlap lids
      let kept ← keepNeighbors nodesOf x h c.owned elem gids
      let rest ← refineLoop nodesOf x h c fuel (pos + 1 + k) (elem + 1)
      .ok (kept :: rest)
    else .ok []

/-- The local ids of the neighbors of one point.
Models src/io/discretization/Peridigm_ExodusDiscretization.cpp:1043-1048. -/
def relabel (ov : List Nat) : List Nat → Outcome (List Nat)
  | [] => .ok []
  | gid :: gids =>
    if gid ∈ ov then do
      let rest ← relabel ov gids
      .ok (ov.idxOf gid :: rest)
    else .fail .terminate

/-- The new list.
Models src/io/discretization/Peridigm_ExodusDiscretization.cpp:1034-1049. -/
def relabelAll (ov : List Nat) : List (List Nat) → Outcome (List Nat)
  | [] => .ok []
  | l :: ls => do
    let here ← relabel ov l
    let rest ← relabelAll ov ls
    .ok (l.length :: (here ++ rest))

/-- `removeNonintersectingNeighborsFromNeighborList`.
Models src/io/discretization/Peridigm_ExodusDiscretization.cpp:944-1050. -/
def removeNonintersecting (nodesOf : Nat → Outcome (List V3)) (x : Nat → V3) (h : Nat → ℝ) (c : NbPart) :
    Outcome NbPart := do
  let lists ← refineLoop nodesOf x h c c.list.length 0 0
  let ov := c.owned ++ (sortUnique lists.flatten).filter fun gid => gid ∉ c.owned
  let list ← relabelAll ov lists
  .ok ⟨c.owned, ov, list⟩

/-- The neighbor lists of all processors.
Models src/io/discretization/Peridigm_ExodusDiscretization.cpp:98-119 and 148-166. -/
def exodusLists (store compute interfaces : Option Bool) (nodesOf : Nat → Outcome (List V3)) (Z : Zoltan)
    (pick1 pick2 : Nat → Nat → Nat) (balanced : List (List Nat)) (x : Nat → V3) (h : Nat → ℝ)
    (fs : List BondFilter) (ranks : List (List Nat)) : Outcome (List NbPart) :=
  if (meshFlags store compute interfaces).2.1 = true then do
    let d ← maxElementDimension (meshFlags store compute interfaces).1 nodesOf ranks
    let parts ← globalProximitySearch Z pick1 pick2 balanced x h d fs ranks
    allOk (removeNonintersecting nodesOf x h) parts
  else globalProximitySearch Z pick1 pick2 balanced x h 0 fs ranks

end Verif.Mesh
