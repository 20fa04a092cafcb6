import Verif.Mesh.IntersectModel

/-!
# Model of ghosting the stored mesh

`ExodusDiscretization::ghostExodusMeshData`, /repo/src/io/discretization/Peridigm_ExodusDiscretization.cpp:1052-1096, on all
processors together.  Each of its three imports takes an element or node from some processor that has it (`Verif.Redist`);
which one is a parameter.  Doubles that carry ids or counts are integers.  The three coordinates of a node are one entry.
-/

noncomputable section

namespace Verif.Mesh

open Verif Verif.Mech Verif.Neigh Verif.Redist
open scoped Classical

/-- The numbers of nodes of the elements of the overlap map; an element that no processor has keeps the zero that the vector
is filled with.
Models src/io/discretization/Peridigm_ExodusDiscretization.cpp:1060-1068. -/
def ghostSizes (pick : Nat → Nat) (ms : List StoredMesh) (ov : List Nat) : List Nat :=
  importColumn pick (ms.map fun m => ⟨BlockMap.const m.elems 1, [m.sizes]⟩) 0 (BlockMap.const ov 1)
    (List.replicate ov.length 0)

/-- The nodes of the elements of the overlap map, -1 where there is nothing to import.
Models src/io/discretization/Peridigm_ExodusDiscretization.cpp:1070-1076. -/
def ghostConn (pick : Nat → Nat) (ms : List StoredMesh) (ov sizes : List Nat) : List Int :=
  importColumn pick (ms.map fun m => ⟨⟨m.elems, m.sizes⟩, [m.conn.map Int.ofNat]⟩) 0 ⟨ov, sizes⟩
    (List.replicate (⟨ov, sizes⟩ : BlockMap).numPoints (-1))

/-- The positions of some nodes; zero for a node that no processor has.
Models src/io/discretization/Peridigm_ExodusDiscretization.cpp:1088-1091. -/
def ghostPositions (pick : Nat → Nat) (ms : List StoredMesh) (nodes : List Nat) : List V3 :=
  importColumn pick (ms.map fun m => ⟨BlockMap.const m.nodes 1, [m.positions]⟩) 0 (BlockMap.const nodes 1)
    (List.replicate nodes.length 0)

/-- The mesh that a processor with the overlap map `ov` has afterwards.  `Epetra_BlockMap` throws if an element has no
entries; negative ids are undefined.
Models src/io/discretization/Peridigm_ExodusDiscretization.cpp:1054-1095. -/
def ghostPart (pickSize pickConn pickNode : Nat → Nat) (ms : List StoredMesh) (ov : List Nat) : Outcome StoredMesh :=
  let sizes := ghostSizes pickSize ms ov
  if 0 ∈ sizes then .fail .terminate
  else
    let conn := ghostConn pickConn ms ov sizes
    if ∃ c ∈ conn, c < 0 then .ub
    else
      let ids := conn.map Int.toNat
      let nodes := sortIds (sortUnique ids)
      .ok ⟨ov, sizes, ids, nodes, ghostPositions pickNode ms nodes⟩

/-- `ghostExodusMeshData` on all processors; `ovs` are their overlap maps.
Models src/io/discretization/Peridigm_ExodusDiscretization.cpp:1052-1096. -/
def ghostMesh (pickSize pickConn pickNode : Nat → Nat → Nat) (ms : List StoredMesh) (ovs : List (List Nat)) :
    Outcome (List StoredMesh) :=
  allOk (fun t : List Nat × Nat => ghostPart (pickSize t.2) (pickConn t.2) (pickNode t.2) ms t.1) ovs.zipIdx

/-- What a processor reads: its file and the global ids of the elements and nodes in it. -/
structure Piece where
  file : Genesis
  elems : List Nat
  nodes : List Nat

/-- The neighbor lists and the stored meshes of all processors: every processor looks elements up in its own mesh, before
the search only those of its file, after it also ghosts.
Models src/io/discretization/Peridigm_ExodusDiscretization.cpp:115-119, 148-169 and 888-942. -/
def storedLists (store compute interfaces : Option Bool) (pickSize pickConn pickNode : Nat → Nat → Nat) (ps : List Piece)
    (Z : Search.Zoltan) (pick1 pick2 : Nat → Nat → Nat) (balanced : List (List Nat)) (x : Nat → V3) (h : Nat → ℝ)
    (fs : List Filter.BondFilter) : Outcome (List NbPart × List StoredMesh) := do
  let flags := meshFlags store compute interfaces
  let ms ← if flags.1 = true then allOk (fun p : Piece => storeMesh p.file p.elems p.nodes) ps else .ok []
  let d ← if flags.2.1 = true then
      if flags.1 = false then .fail .terminate
      else do
        let ls ← allOk (fun m : StoredMesh => localDimension (exodusNodes m) m.elems) ms
        .ok (ls.foldl max 0)
    else .ok 0
  let parts ← Search.globalProximitySearch Z pick1 pick2 balanced x h d fs (ps.map Piece.elems)
  let ms ← if flags.1 = true then ghostMesh pickSize pickConn pickNode ms (parts.map NbPart.overlap) else .ok ms
  if flags.2.1 = true then do
    let res ← allOk (fun t : NbPart × StoredMesh => removeNonintersecting (exodusNodes t.2) x h t.1) (parts.zip ms)
    .ok (res, ms)
  else .ok (parts, ms)

end Verif.Mesh
