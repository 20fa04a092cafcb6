import Verif.Mesh.ExodusModel
import Verif.Exodus.Model
import Verif.Params.Model
import Mathlib.Data.List.Sort
import Mathlib.Data.String.Basic
import Mathlib.Analysis.SpecialFunctions.Pow.Real

/-!
# Model of the mesh converter

`main` of /repo/src/mesh_converter/Peridigm_MeshConverter_Main.cpp:78-423 on one processor, together with the
constructor of `ExodusDiscretization` (/repo/src/io/discretization/Peridigm_ExodusDiscretization.cpp:88-204) as far
as it decides which points, blocks and node sets the converter sees, and `NeighborhoodData::WriteToDisk`
(/repo/src/core/Peridigm_NeighborhoodData.hpp:126-141).

Simplifications.
* Numbers are exact.  The printed messages, the file names, the quality-assurance record, the names of the
  coordinates, `ex_update`, `ex_close` and the clean-up are left out.  The neighbourhood search is modelled in
  `Verif.Search`; its result is written by `neighborhoodFile` below.
* Of the Exodus library it is assumed that what is put is what is read, and that declaring a block whose id is
  taken is an error.
* `&v[0]` for an empty vector is a pointer that is not used.
-/

noncomputable section

namespace Verif.Convert

open Verif Verif.Mech Verif.Neigh Verif.Mesh
open Verif.Exodus (copyNames concatSets)
open scoped Classical

/-- What the discretization object offers: the global ids of its points (in the order of the local ids), the data
of the points, and the two maps from names to lists of ids, in the order of the names.
Models the results of `getGlobalOwnedMap`, `getInitialX`, `getCellVolume`, `getBlockID`, `getElementBlocks` and
`getNodeSets`, used in src/mesh_converter/Peridigm_MeshConverter_Main.cpp:133-142, 313, 341-342. -/
structure Disc where
  ids : List Nat
  points : List PointData
  blocks : List (String × List Nat)
  sets : List (String × List Nat)

/-- The order of the entries of a `std::map` with names as keys. -/
def byName (a b : String × List Nat) : Prop := a.1 ≤ b.1

instance : DecidableRel byName := fun a b => inferInstanceAs (Decidable (a.1 ≤ b.1))

/-- The constructor of `ExodusDiscretization` without neighbourhood lists.  There is no load balancing: a point
keeps the processor and the place it has in the file.
Models src/io/discretization/Peridigm_ExodusDiscretization.cpp:88-204 with 209-590 (`Verif.Mesh`). -/
def readMesh (g : Genesis) : Outcome Disc := do
  let ids ← chooseMap g.elemMap g.auxElemMaps
  let _ ← chooseMap g.nodeMap g.auxNodeMaps
  let s ← loadMesh g ids
  let sets ← loadNodeSets g ids
  .ok ⟨ids, s.points, s.blocks.insertionSort byName, sets.insertionSort byName⟩

/-- "Scale Factor" and, if it is given, "Boundary Layer Thickness".
Models src/mesh_converter/Peridigm_MeshConverter_Main.cpp:121, 148-149. -/
structure Params where
  scale : ℝ
  layer : Option ℝ

/-- `DBL_MAX`, src/mesh_converter/Peridigm_MeshConverter_Main.cpp:152. -/
def dblMax : ℝ := (2 - (1 / 2) ^ 52) * 2 ^ 1023

/-- The bounding box.
Models the variables of src/mesh_converter/Peridigm_MeshConverter_Main.cpp:152. -/
structure Box where
  lo : V3
  hi : V3

/-- One point enlarges the box.
Models src/mesh_converter/Peridigm_MeshConverter_Main.cpp:154-163. -/
def Box.grow (b : Box) (x : V3) : Box where
  lo a := if x a < b.lo a then x a else b.lo a
  hi a := if x a > b.hi a then x a else b.hi a

/-- The bounding box of the points (not scaled).
Models src/mesh_converter/Peridigm_MeshConverter_Main.cpp:151-164. -/
def boundingBox (xs : List V3) : Box := xs.foldl Box.grow ⟨fun _ => dblMax, fun _ => -dblMax⟩

/-- The lists of `boundaryLayerNodeSets`.
Models src/mesh_converter/Peridigm_MeshConverter_Main.cpp:167-173. -/
structure Layers where
  minFace : Fin 3 → List Nat
  maxFace : Fin 3 → List Nat
  initial : List Nat

/-- Point number `i` is put into its layers: for each axis the ones at the two ends, and the list of the points
that are not in the last layer along x.
Models src/mesh_converter/Peridigm_MeshConverter_Main.cpp:174-206. -/
def Layers.add (box : Box) (t : ℝ) (i : Nat) (x : V3) (l : Layers) : Layers where
  minFace a := if x a < box.lo a + t then l.minFace a ++ [i] else l.minFace a
  maxFace a := if x a > box.hi a - t then l.maxFace a ++ [i] else l.maxFace a
  initial := if x 0 > box.hi 0 - t then l.initial else l.initial ++ [i]

/-- The loop over the points, from number `i` on.
Models src/mesh_converter/Peridigm_MeshConverter_Main.cpp:174-206. -/
def fillLayers (box : Box) (t : ℝ) : Nat → List V3 → Layers → Layers
  | _, [], l => l
  | i, x :: xs, l => fillLayers box t (i + 1) xs (l.add box t i x)

/-- `boundaryLayerNodeSets` in the order of the names; empty without the parameter.
Models src/mesh_converter/Peridigm_MeshConverter_Main.cpp:147-207. -/
def layerSets (layer : Option ℝ) (xs : List V3) : List (String × List Nat) :=
  match layer with
  | none => []
  | some t =>
    let l := fillLayers (boundingBox xs) t 0 xs ⟨fun _ => [], fun _ => [], []⟩
    [("initial_velocity_node_set", l.initial), ("max_x_face", l.maxFace 0), ("max_y_face", l.maxFace 1),
      ("max_z_face", l.maxFace 2), ("min_x_face", l.minFace 0), ("min_y_face", l.minFace 1),
      ("min_z_face", l.minFace 2)]

/-- The node sets put into the file, numbered from one; the names are copied into arrays of `MAX_STR_LENGTH+1`
characters.  The entries of the mesh's own sets are global ids, those of the layers local ones.
Models src/mesh_converter/Peridigm_MeshConverter_Main.cpp:224-286. -/
def putNodeSets (own layers : List (String × List Nat)) : Outcome (List NodeSet) :=
  let sets := own.map (fun s => (s.1, s.2.map (· + 1))) ++ layers.map (fun s => (s.1, s.2.map (· + 1)))
  let c := concatSets sets 0 0
  if 0 < own.length + layers.length then do
    let names ← copyNames (own.map Prod.fst ++ layers.map Prod.fst)
    .ok (List.zipWith (fun name (r : Nat × Nat × Nat) => ⟨r.1, name, (c.2.drop r.2.2).take r.2.1⟩) names c.1)
  else .ok []

/-- The positions put into the file.
Models src/mesh_converter/Peridigm_MeshConverter_Main.cpp:288-305. -/
def putCoords (scale : ℝ) (xs : List V3) : List V3 := xs.map fun x a => scale * x a

/-- The blocks are declared one by one, the id taken from the name; the library refuses an id that is taken.
Models src/mesh_converter/Peridigm_MeshConverter_Main.cpp:320-328 with 65-71. -/
def declareBlocks : List (String × List Nat) → List ℤ → Outcome (List ℤ)
  | [], _ => .ok []
  | (name, _) :: rest, taken => do
    let id ← Params.blockNameToBlockId name.toList
    if id ∈ taken then .fail .terminate
    else do
      let ids ← declareBlocks rest (taken ++ [id])
      .ok (id :: ids)

/-- `cbrt`, src/mesh_converter/Peridigm_MeshConverter_Main.cpp:356. -/
def cbrt (v : ℝ) : ℝ := if 0 ≤ v then v ^ (1 / 3 : ℝ) else -(-v) ^ (1 / 3 : ℝ)

/-- Node number and attributes of the elements of a block.  A global id that the map does not have gives the local
id -1.
Models src/mesh_converter/Peridigm_MeshConverter_Main.cpp:346-360. -/
def elementData (d : Disc) : List Nat → Outcome (List Nat × List ℝ)
  | [] => .ok ([], [])
  | gid :: rest => do
    let l ← lidOf d.ids gid
    let p ← readAt d.points l
    let r ← elementData d rest
    .ok ((l + 1) :: r.1, cbrt p.volume :: p.volume :: r.2)

/-- The blocks of the file.  Connectivity and attributes of a block without elements are not put.
Models src/mesh_converter/Peridigm_MeshConverter_Main.cpp:321-366; `ids` and `names` have been put before. -/
def putBlocks (d : Disc) : List (String × List Nat) → List ℤ → List String → Outcome (List ElemBlock)
  | b :: bs, id :: ids, name :: names => do
    let r ← elementData d b.2
    let rest ← putBlocks d bs ids names
    .ok (⟨id, name, "SPHERE", b.2.length, 1, r.1, 2, r.2⟩ :: rest)
  | _, _, _ => .ok []

/-- The element number map: an array of `num_nodes` zeros, filled from the start.
Models src/mesh_converter/Peridigm_MeshConverter_Main.cpp:377-387. -/
def putElemMap (d : Disc) : Outcome (List Nat) :=
  let gs := d.blocks.flatMap fun b => b.2.map (· + 1)
  if gs.length ≤ d.ids.length then .ok (gs ++ List.replicate (d.ids.length - gs.length) 0) else .ub

/-- The file that is written.
Models src/mesh_converter/Peridigm_MeshConverter_Main.cpp:135-393. -/
def convert (p : Params) (d : Disc) : Outcome Genesis := do
  let xs := d.points.map PointData.x
  let sets ← putNodeSets d.sets (layerSets p.layer xs)
  let ids ← declareBlocks d.blocks []
  if d.blocks.length < 1 then .fail .terminate
  else do
    let names ← copyNames (d.blocks.map Prod.fst)
    let blocks ← putBlocks d d.blocks ids names
    let elemMap ← putElemMap d
    .ok ⟨putCoords p.scale xs, d.ids.map (· + 1), elemMap, [], [], blocks, sets⟩

/-! ### The neighbourhood file -/

/-- `output << n << " "`. -/
def putNumber (n : Nat) : List Char := Nat.toDigits 10 n ++ [' ']

/-- `NeighborhoodData::WriteToDisk`; `numOwnedPoints` and `neighborhoodListSize` are the lengths of the arrays.
Models src/core/Peridigm_NeighborhoodData.hpp:126-141. -/
def neighborhoodFile (d : NeighborhoodData) : List Char :=
  putNumber d.ownedIDs.length ++ d.ownedIDs.flatMap putNumber ++ putNumber d.list.length ++
    d.list.flatMap putNumber ++ d.ptr.flatMap putNumber

end Verif.Convert
