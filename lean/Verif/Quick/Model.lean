import Verif.Grid.Model
import Verif.Balance.Model
import Verif.Redist.Model

/-!
# Model of the discretization "PdQuickGrid"

The constructor of `PdQuickGridDiscretization`, /repo/src/io/discretization/Peridigm_PdQuickGridDiscretization.cpp:58-105,
and its `getDiscretization`, 135-227, on all processors: generation (`Verif.Grid`), load balancing (`Verif.Balance`),
maps and neighborhood data (`Verif.Neigh`).  The model is of builds with MPI.  Not modelled: the radii and the
dimension of elements (170-172, 220).  Numbers are words in the buffers of load balancing; `enc` gives the words of a
number.
-/

namespace Verif.Quick

open Verif Verif.Mech

/-- The parameters: "Type", whether there is a sublist "Bond Filters", "NeighborhoodType", the constant horizon of
block_1 if it has one, and the sublists "TensorProduct3DMeshGenerator" and "TensorProductCylinderMeshGenerator" if
they are there.
Models src/io/discretization/Peridigm_PdQuickGridDiscretization.cpp:69-71, 137-164, 175-191. -/
structure Input where
  type : String
  filters : Bool
  neighborhoodType : Option String
  horizon : Option ℝ
  box : Option (Grid.Spec × Grid.Spec × Grid.Spec)
  cylinder : Option Grid.Ring

/-- The mesh generator; a sublist for a box has precedence.
Models src/io/discretization/Peridigm_PdQuickGridDiscretization.cpp:137-164, 174-213, 222-224. -/
noncomputable def Input.generator (I : Input) : Outcome Grid.Generator :=
  match I.horizon with
  | none => .fail .runtimeError
  | some h =>
    match I.box with
    | some (xs, ys, zs) => Grid.box h xs ys zs (Grid.normOf I.neighborhoodType)
    | none =>
      match I.cylinder with
      | some R => Grid.cylinder h R (Grid.normOf I.neighborhoodType)
      | none => .fail .runtimeError

/-- The data of a processor as load balancing gets them.  (On the first processor the arrays are longer; the rest is
not used.)
Models src/io/mesh_input/quick_grid/QuickGrid.cxx:172-241, 1918-1944. -/
def gridData (enc : ℝ → Balance.Dbl) (d : Grid.Data) : Balance.GridData where
  dim := 3
  numPoints := d.gids.length
  size := d.neighborhood.length
  numExport := 0
  unPack := true
  ids := d.gids
  X := d.x.flatMap fun p => [enc (p 0), enc (p 1), enc (p 2)]
  V := d.volume.map enc
  nbs := d.neighborhood
  ptrs := d.neighborhoodPtr
  flags := List.replicate d.gids.length false

/-- The grid of a processor after load balancing.  A processor without points has a number of points of -1 converted to
`size_t`; what it does is undefined.
Models src/io/discretization/Peridigm_PdQuickGridDiscretization.cpp:165-168, 214-218. -/
def balanced (enc : ℝ → Balance.Dbl) (P : Balance.Plan) (ds : List Grid.Data) (q : Nat) : Outcome Balance.GridData :=
  match Grid.deliver ds q with
  | none => .ub
  | some d => Balance.balance P q (gridData enc d)

/-- What the discretization of a processor holds: maps and neighborhood data, bond map, `initialX`, `cellVolume`,
`horizonForEachPoint`, `blockID` and the entry "block_1" of `elementBlocks`.
Models src/io/discretization/Peridigm_PdQuickGridDiscretization.cpp:75-104. -/
structure Part where
  disc : Neigh.Disc
  bonds : BlockMap
  x : List Balance.Dbl
  volume : List Balance.Dbl
  horizon : List ℝ
  blockId : List Nat
  elements : List Nat

/-- The constructor after `getDiscretization`; `total` is the number of points on all processors.
Models src/io/discretization/Peridigm_PdQuickGridDiscretization.cpp:75-104. -/
def finish (h : ℝ) (total : Nat) (g : Balance.GridData) : Outcome Part := do
  let D ← Neigh.discretize ⟨g.ids, g.nbs, g.ptrs⟩
  if g.dim ≠ 3 then .fail .runtimeError
  else do
    let b ← Neigh.bondMap D
    .ok ⟨D, b, g.X, g.V, List.replicate g.numPoints h, List.replicate g.numPoints 1, List.range total⟩

/-- The discretizations of all processors.
Models src/io/discretization/Peridigm_PdQuickGridDiscretization.cpp:58-105. -/
noncomputable def construct (enc : ℝ → Balance.Dbl) (P : Balance.Plan) (I : Input) (procs : Nat) :
    Outcome (List Part) :=
  if I.type ≠ "PdQuickGrid" then .fail .runtimeError
  else if I.filters = true then .fail .runtimeError
  else
    match I.horizon with
    | none => .fail .runtimeError
    | some h => do
      let G ← I.generator
      let ds ← G.data procs
      let gs ← Redist.allOk (balanced enc P ds) (List.range procs)
      Redist.allOk (finish h (gs.map Balance.GridData.numPoints).sum) gs

end Verif.Quick
