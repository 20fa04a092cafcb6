import Verif.Common.Outcome
import Verif.Mech.Model
import Mathlib.Algebra.Order.Archimedean.Real.Basic
import Mathlib.Analysis.SpecialFunctions.Trigonometric.Basic

/-!
# Generated meshes (model)

Models the mesh generators for boxes and hollow cylinders in
src/io/mesh_input/quick_grid/QuickGrid.cxx and QuickGrid.h and their use in
src/io/discretization/Peridigm_PdQuickGridDiscretization.cpp.

* Numbers are exact; unsigned integers do not overflow.
* Arrays filled entry by entry through a moving pointer are lists in the order of filling.
* The load balancing that follows is not modelled.
-/

namespace Verif.Grid

open Verif Verif.Mech

/-! ## One direction -/

/-- `Spec1D`.
Models src/io/mesh_input/quick_grid/QuickGrid.h:180-196. -/
structure Spec where
  n : Nat
  x0 : ℝ
  length : ℝ

/-- `getCellSize`.
Models src/io/mesh_input/quick_grid/QuickGrid.h:186. -/
noncomputable def Spec.cellSize (s : Spec) : ℝ := s.length / s.n

/-- The loop of `getDiscretization(const Spec1D&)`.
Models src/io/mesh_input/quick_grid/QuickGrid.cxx:250-251. -/
noncomputable def centersLoop : Nat → ℝ → ℝ → List ℝ
  | 0, _, _ => []
  | n + 1, p, d => p :: centersLoop n (p + d) d

/-- `getDiscretization(const Spec1D&)`.
Models src/io/mesh_input/quick_grid/QuickGrid.cxx:243-253. -/
noncomputable def Spec.centers (s : Spec) : List ℝ :=
  centersLoop s.n (s.x0 + s.cellSize / 2) s.cellSize

/-- `static_cast<size_t>` of a number that is above -1.
Models src/io/mesh_input/quick_grid/QuickGrid.cxx:397. -/
noncomputable def truncate (d : ℝ) : Nat := ⌊d⌋₊

open Classical in
/-- `getCellNeighborhoodSize`: the horizon as a number of cells, rounded.  The conversion to an
integer is undefined for numbers up to -1 and for a quotient by zero.  With no cells the code divides
by zero; nothing depends on the result and the model takes 0.
Models src/io/mesh_input/quick_grid/QuickGrid.cxx:394-409. -/
noncomputable def Spec.reach (s : Spec) (horizon ringRadius : ℝ) : Outcome Nat :=
  if s.n = 0 then .ok 0
  else if s.cellSize * ringRadius = 0 then .ub
  else if horizon / (s.cellSize * ringRadius) ≤ -1 then .ub
  else if 1 / 2 ≤ |horizon / (s.cellSize * ringRadius) - truncate (horizon / (s.cellSize * ringRadius))| then
    .ok (min (truncate (horizon / (s.cellSize * ringRadius)) + 1) s.n)
  else .ok (min (truncate (horizon / (s.cellSize * ringRadius))) s.n)

/-- `Horizon`: the cells on both sides of a cell, cut off at the ends.
Models src/io/mesh_input/quick_grid/QuickGrid.h:95-121. -/
structure Window where
  reach : Nat
  n : Nat

/-- `start`.
Models src/io/mesh_input/quick_grid/QuickGrid.h:116. -/
def Window.start (w : Window) (i : Nat) : Nat := if w.reach < i then i - w.reach else 0

/-- `end`.  The difference does not wrap around since the reach is at most the number of cells.
Models src/io/mesh_input/quick_grid/QuickGrid.h:119. -/
def Window.stop (w : Window) (i : Nat) : Nat := if i < w.n - w.reach then i + w.reach + 1 else w.n

/-- `numCells`.
Models src/io/mesh_input/quick_grid/QuickGrid.h:107. -/
def Window.numCells (w : Window) (i : Nat) : Nat := w.stop i - w.start i

/-- The values of `ii` in the loop from `start` to `start + numCells`.
Models src/io/mesh_input/quick_grid/QuickGrid.cxx:564-565, 571-572, 588-589, 596-598 (and 1434-1435, 1459-1460, 1466, 1471). -/
def Window.cells (w : Window) (i : Nat) : List Nat :=
  (List.range (w.numCells i)).map fun t => w.start i + t

/-- `getCellHorizon`.
Models src/io/mesh_input/quick_grid/QuickGrid.cxx:378-381. -/
noncomputable def Spec.window (s : Spec) (horizon : ℝ) : Outcome Window := do
  let r ← s.reach horizon 1
  .ok { reach := r, n := s.n }

/-! ## The walk over the cells -/

/-- `Cell3D`.
Models src/io/mesh_input/quick_grid/QuickGrid.h:223-228. -/
structure Cell where
  i : Nat
  j : Nat
  k : Nat
deriving DecidableEq

/-- The global id of a cell.
Models src/io/mesh_input/quick_grid/QuickGrid.cxx:577, 606 (and 1446, 1485). -/
def Cell.gid (nx ny : Nat) (c : Cell) : Nat := c.i + c.j * nx + c.k * nx * ny

/-- The variables of the three nested loops and the cells visited so far.  `here` is `cellLocator`. -/
structure Walk where
  cell : Nat
  iStart : Nat
  jStart : Nat
  here : Cell
  out : List Cell

/-- The loop over `i`, at most `fuel` passes.
Models src/io/mesh_input/quick_grid/QuickGrid.cxx:574-617 (and 1443-1494). -/
def rowLoop (nx my j k : Nat) : Nat → Nat → Walk → Walk
  | 0, _, w => w
  | fuel + 1, i, w =>
      if i < nx ∧ w.cell < my then
        rowLoop nx my j k fuel (i + 1)
          { w with
            cell := w.cell + 1, iStart := 0, here := { w.here with i := w.here.i + 1 },
            out := w.out ++ [⟨i, j, k⟩] }
      else w

/-- What is done after a row: the locator moves to the next row.
Models src/io/mesh_input/quick_grid/QuickGrid.cxx:619-630 (and 1496-1507). -/
def nextRow (nx ny my : Nat) (cell : Nat) (c : Cell) : Cell :=
  if c.i = nx then
    if cell = my then
      if c.j + 1 = ny then ⟨0, 0, c.k + 1⟩ else ⟨0, c.j + 1, c.k⟩
    else ⟨0, c.j, c.k⟩
  else c

/-- The loop over `j`, at most `fuel` passes.
Models src/io/mesh_input/quick_grid/QuickGrid.cxx:567-632 (and 1437-1509). -/
def planeLoop (nx ny my k : Nat) : Nat → Nat → Walk → Walk
  | 0, _, w => w
  | fuel + 1, j, w =>
      if j < ny ∧ w.cell < my then
        let w1 := rowLoop nx my j k nx w.iStart { w with jStart := 0, here := { w.here with j := j } }
        planeLoop nx ny my k fuel (j + 1) { w1 with here := nextRow nx ny my w1.cell w1.here }
      else w

/-- The loop over `k`, at most `fuel` passes.
Models src/io/mesh_input/quick_grid/QuickGrid.cxx:560-633 (and 1430-1510). -/
def bodyLoop (nx ny nz my : Nat) : Nat → Nat → Walk → Walk
  | 0, _, w => w
  | fuel + 1, k, w =>
      if k < nz ∧ w.cell < my then
        bodyLoop nx ny nz my fuel (k + 1)
          (planeLoop nx ny my k ny w.jStart { w with here := { w.here with k := k } })
      else w

/-- The cells of a processor, from the locator left by the one before, and the new locator.
Models src/io/mesh_input/quick_grid/QuickGrid.cxx:552-633, 646 (and 1422-1510, 1523). -/
def walk (nx ny nz my : Nat) (c : Cell) : Walk :=
  bodyLoop nx ny nz my nz c.k { cell := 0, iStart := c.i, jStart := c.j, here := c, out := [] }

/-! ## The size of the neighborhood list -/

/-- Variables of `getSizeNeighborList`. -/
structure Count where
  cell : Nat
  iStart : Nat
  jStart : Nat
  size : Nat

/-- The loop over `i`.
Models src/io/mesh_input/quick_grid/QuickGrid.cxx:682-686 (and 1582-1586). -/
def countRow (nx my j k : Nat) (bound : Cell → Nat) : Nat → Nat → Count → Count
  | 0, _, c => c
  | fuel + 1, i, c =>
      if i < nx ∧ c.cell < my then
        countRow nx my j k bound fuel (i + 1)
          { c with cell := c.cell + 1, iStart := 0, size := c.size + bound ⟨i, j, k⟩ }
      else c

/-- The loop over `j`.
Models src/io/mesh_input/quick_grid/QuickGrid.cxx:679-687 (and 1579-1587). -/
def countPlane (nx ny my k : Nat) (bound : Cell → Nat) : Nat → Nat → Count → Count
  | 0, _, c => c
  | fuel + 1, j, c =>
      if j < ny then
        countPlane nx ny my k bound fuel (j + 1)
          (countRow nx my j k bound nx c.iStart { c with jStart := 0 })
      else c

/-- The loop over `k`.
Models src/io/mesh_input/quick_grid/QuickGrid.cxx:676-688 (and 1576-1588). -/
def countBody (nx ny nz my : Nat) (bound : Cell → Nat) : Nat → Nat → Count → Count
  | 0, _, c => c
  | fuel + 1, k, c =>
      if k < nz then
        countBody nx ny nz my bound fuel (k + 1) (countPlane nx ny my k bound ny c.jStart c)
      else c

/-- `getSizeNeighborList`.
Models src/io/mesh_input/quick_grid/QuickGrid.cxx:649-691 (and 1549-1591). -/
def sizeNeighborList (nx ny nz my : Nat) (bound : Cell → Nat) (c : Cell) : Nat :=
  (countBody nx ny nz my bound nz c.k { cell := 0, iStart := c.i, jStart := c.j, size := my }).size

/-! ## The data of a processor -/

/-- What the generators for boxes and cylinders have in common: numbers of cells, position and volume
of a cell, the ids of its neighbors and `computeNumNeighbors`. -/
structure Generator where
  nx : Nat
  ny : Nat
  nz : Nat
  point : Cell → V3
  volume : Cell → ℝ
  neighbors : Cell → List Nat
  bound : Cell → Nat

/-- The number of cells.
Models src/io/mesh_input/quick_grid/QuickGrid.cxx:484 (and 1337 with 424). -/
def Generator.total (G : Generator) : Nat := G.nx * G.ny * G.nz

/-- The members of `QuickGridData` that matter here, and the number of entries reserved for
`neighborhood`.
Models src/io/mesh_input/quick_grid/QuickGridData.h:56-72. -/
structure Data where
  globalNumPoints : Nat
  gids : List Nat
  x : List V3
  volume : List ℝ
  reserved : Nat
  neighborhood : List Nat
  neighborhoodPtr : List Nat

/-- What is written through `neighborPtr`: for every cell the number of neighbors and their ids.
Models src/io/mesh_input/quick_grid/QuickGrid.cxx:593-594, 607-608, 614 (and 1464-1465, 1486-1487,
1492). -/
def entries : List (List Nat) → List Nat
  | [] => []
  | ns :: rest => (ns.length :: ns) ++ entries rest

/-- `neighPtr` from the lengths found in the list.
Models src/io/mesh_input/quick_grid/QuickGrid.cxx:637-644 (and 1514-1521). -/
def pointers : List (List Nat) → Nat → List Nat
  | [], _ => []
  | ns :: rest, sum => sum :: pointers rest (sum + (ns.length + 1))

/-- `computePdGridData`.  `sizeNeighborhoodList` is the length of `neighborhood`.
Models src/io/mesh_input/quick_grid/QuickGrid.cxx:510-647 (and 1370-1524). -/
def Generator.compute (G : Generator) (my : Nat) (c : Cell) : Cell × Data :=
  let w := walk G.nx G.ny G.nz my c
  (w.here,
    { globalNumPoints := G.total
      gids := w.out.map (Cell.gid G.nx G.ny)
      x := w.out.map G.point
      volume := w.out.map G.volume
      reserved := sizeNeighborList G.nx G.ny G.nz my G.bound c
      neighborhood := entries (w.out.map G.neighbors)
      neighborhoodPtr := pointers (w.out.map G.neighbors) 0 })

/-- `getNumCellsPerProcessor`; no processors means an assignment out of bounds.
Models src/io/mesh_input/quick_grid/QuickGrid.cxx:457-465. -/
def cellsPerProc (total procs : Nat) : Outcome (List Nat) :=
  if procs = 0 then .ub
  else .ok ((List.replicate procs (total / procs)).set (procs - 1) (total / procs + total % procs))

/-- The entries reserved for ids, positions and volumes.
Models src/io/mesh_input/quick_grid/QuickGrid.cxx:499-508 (and 1593-1602). -/
def reservedCells (counts : List Nat) : Nat := counts.getLast?.getD 0

/-- The loop over processors, from a locator.
Models src/io/mesh_input/quick_grid/QuickGrid.cxx:451-455, 1879-1883. -/
def Generator.iterate (G : Generator) : List Nat → Cell → List Data
  | [], _ => []
  | my :: rest, c => (G.compute my c).2 :: G.iterate rest (G.compute my c).1

/-- The data made for the processors, in their order.
Models src/io/mesh_input/quick_grid/QuickGrid.cxx:443-449, 491, 1363, 1870-1883. -/
def Generator.data (G : Generator) (procs : Nat) : Outcome (List Data) := do
  let counts ← cellsPerProc G.total procs
  .ok (G.iterate counts ⟨0, 0, 0⟩)

/-- What a processor returns from `getDiscretization(rank, iterator)`: the first one keeps its data,
the others receive theirs unless they get no points, in which case they return a `QuickGridData` made
by the default constructor (`none`), whose number of points is -1 converted to `size_t`.  (The first
processor sends the rest of the data anyway; that nobody receives it is not modelled.)
Models src/io/mesh_input/quick_grid/QuickGrid.cxx:1870-1962 and QuickGridData.h:70. -/
def deliver (ds : List Data) (rank : Nat) : Option Data :=
  match ds[rank]? with
  | none => none
  | some d => if rank = 0 ∨ 0 < d.gids.length then some d else none

/-! ## Boxes -/

/-- The test whether a cell of the window is a neighbor. -/
abbrev Norm := V3 → V3 → ℝ → Prop

/-- `SphericalNormFunction`.
Models src/io/mesh_input/quick_grid/QuickGrid.cxx:160-165. -/
def spherical : Norm := fun u v r =>
  (v 0 - u 0) * (v 0 - u 0) + (v 1 - u 1) * (v 1 - u 1) + (v 2 - u 2) * (v 2 - u 2) - r * r < 0

/-- `NoOpNormFunction`.
Models src/io/mesh_input/quick_grid/QuickGrid.cxx:167-169. -/
def noOp : Norm := fun _ _ _ => True

/-- The norm for "NeighborhoodType".
Models src/io/discretization/Peridigm_PdQuickGridDiscretization.cpp:142-147. -/
def normOf (neighborhoodType : Option String) : Norm :=
  if neighborhoodType = some "Spherical" then spherical else noOp

open Classical in
/-- The neighbors of a cell: the cells of the lists, other than itself, that pass the test.
Models src/io/mesh_input/quick_grid/QuickGrid.cxx:596-612 (and 1466-1491). -/
noncomputable def neighborsIn (nx ny : Nat) (point : Cell → V3) (norm : Norm) (horizon : ℝ)
    (is js ks : List Nat) (c : Cell) : List Nat :=
  ks.flatMap fun kk => js.flatMap fun jj => is.filterMap fun ii =>
    if (⟨ii, jj, kk⟩ : Cell) = c then none
    else if norm (point ⟨ii, jj, kk⟩) (point c) horizon then
      some ((⟨ii, jj, kk⟩ : Cell).gid nx ny)
    else none

/-- The position of a cell of a box.
Models src/io/mesh_input/quick_grid/QuickGrid.cxx:493-496, 563, 570, 579-583, 602-604. -/
noncomputable def boxPoint (xs ys zs : Spec) (c : Cell) : V3 :=
  ![xs.centers.getD c.i 0, ys.centers.getD c.j 0, zs.centers.getD c.k 0]

/-- `TensorProduct3DMeshGenerator`.
Models src/io/mesh_input/quick_grid/QuickGrid.cxx:470-497, 520-526, 585-586, 693-710. -/
noncomputable def box (horizon : ℝ) (xs ys zs : Spec) (norm : Norm) : Outcome Generator := do
  let hx ← xs.window horizon
  let hy ← ys.window horizon
  let hz ← zs.window horizon
  .ok
    { nx := xs.n, ny := ys.n, nz := zs.n
      point := boxPoint xs ys zs
      volume := fun _ => xs.cellSize * ys.cellSize * zs.cellSize
      neighbors := fun c => neighborsIn xs.n ys.n (boxPoint xs ys zs) norm horizon
        (hx.cells c.i) (hy.cells c.j) (hz.cells c.k) c
      bound := fun c => hx.numCells c.i * hy.numCells c.j * hz.numCells c.k - 1 }

/-! ## Hollow cylinders -/

/-- `SpecRing2D` and the parameters along the axis.
Models src/io/mesh_input/quick_grid/QuickGrid.h:201-221 and
src/io/discretization/Peridigm_PdQuickGridDiscretization.cpp:187-203. -/
structure Ring where
  center : ℝ × ℝ
  inner : ℝ
  outer : ℝ
  rings : Nat
  zStart : ℝ
  length : ℝ

/-- The angle of a cell on the middle circle, for cells with sides of equal length.
Models src/io/mesh_input/quick_grid/QuickGrid.cxx:416-421. -/
noncomputable def Ring.dTheta (R : Ring) : ℝ :=
  ((R.outer - R.inner) / R.rings) / ((R.inner + R.outer) / 2)

open Classical in
/-- `numRays`.  Division by zero and negative angles are undefined.
Models src/io/mesh_input/quick_grid/QuickGrid.cxx:412-426. -/
noncomputable def Ring.rays (R : Ring) : Outcome Nat :=
  if R.rings = 0 ∨ R.inner + R.outer = 0 ∨ R.dTheta = 0 ∨ 2 * Real.pi / R.dTheta ≤ -1 then .ub
  else .ok (truncate (2 * Real.pi / R.dTheta) + 1)

/-- `getRaySpec`: the direction of the radius.
Models src/io/mesh_input/quick_grid/QuickGrid.h:212 and QuickGrid.cxx:428. -/
noncomputable def Ring.raySpec (R : Ring) : Spec :=
  { n := R.rings, x0 := R.inner, length := |R.outer - R.inner| }

/-- `getRingSpec`: the direction of the angle.
Models src/io/mesh_input/quick_grid/QuickGrid.h:211. -/
noncomputable def ringSpec (rays : Nat) : Spec := { n := rays, x0 := 0, length := 2 * Real.pi }

open Classical in
/-- The direction of the axis.
Models src/io/discretization/Peridigm_PdQuickGridDiscretization.cpp:211-213. -/
noncomputable def Ring.axisSpec (R : Ring) : Outcome Spec :=
  if R.raySpec.cellSize = 0 ∨ R.length / R.raySpec.cellSize ≤ -1 then .ub
  else .ok { n := truncate (R.length / R.raySpec.cellSize) + 1, x0 := R.zStart, length := R.length }

/-- `RingHorizonIterator::start`; a reach beyond the number of rays does not occur.
Models src/io/mesh_input/quick_grid/QuickGrid.h:168. -/
def ringStart (reach rays j : Nat) : Nat := if reach ≤ j then j - reach else rays - (reach - j)

/-- The values `nextCell` returns until `hasNextCell` is false.
Models src/io/mesh_input/quick_grid/QuickGrid.h:154-162, 169. -/
def ringLoop (rays : Nat) : Nat → Nat → List Nat
  | 0, _ => []
  | n + 1, ray => ray :: ringLoop rays n (if ray < rays - 1 then ray + 1 else 0)

/-- The rays on both sides of a ray, all the way round.
Models src/io/mesh_input/quick_grid/QuickGrid.h:149, 176 and QuickGrid.cxx:1467-1470. -/
def ringCells (reach rays j : Nat) : List Nat := ringLoop rays (2 * reach + 1) (ringStart reach rays j)

/-- The position of a cell of a cylinder; the center does not occur in it.
Models src/io/mesh_input/quick_grid/QuickGrid.cxx:1433, 1440-1442, 1448-1453 (and 1475-1482). -/
noncomputable def cylinderPoint (rs ts zs : Spec) (c : Cell) : V3 :=
  ![rs.centers.getD c.i 0 * Real.cos (ts.centers.getD c.j 0),
    rs.centers.getD c.i 0 * Real.sin (ts.centers.getD c.j 0), zs.centers.getD c.k 0]

/-- `TensorProductCylinderMeshGenerator`.
Models src/io/mesh_input/quick_grid/QuickGrid.cxx:1320-1368, 1380-1397, 1455-1457, 1530-1547. -/
noncomputable def cylinder (horizon : ℝ) (R : Ring) (norm : Norm) : Outcome Generator := do
  let rays ← R.rays
  let zs ← R.axisSpec
  let hz ← zs.window horizon
  let reach ← (ringSpec rays).reach horizon ((R.inner + R.outer) / 2)
  let hr ← R.raySpec.window horizon
  let _ ← (ringSpec rays).window horizon
  .ok
    { nx := R.rings, ny := rays, nz := zs.n
      point := cylinderPoint R.raySpec (ringSpec rays) zs
      volume := fun c => R.raySpec.centers.getD c.i 0 * R.raySpec.cellSize * (ringSpec rays).cellSize *
        zs.cellSize
      neighbors := fun c => neighborsIn R.rings rays (cylinderPoint R.raySpec (ringSpec rays) zs) norm
        horizon (hr.cells c.i) (ringCells reach rays c.j) (hz.cells c.k) c
      bound := fun c => hr.numCells c.i * (2 * reach + 1) * hz.numCells c.k - 1 }

end Verif.Grid
