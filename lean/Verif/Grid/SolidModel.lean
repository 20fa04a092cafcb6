import Verif.Grid.Model

/-!
# Solid cylinders (model)

Models `TensorProductSolidCylinder` in src/io/mesh_input/quick_grid/QuickGrid.cxx:1604-1847: rings of cells about a core, in
layers along the axis.

* Numbers are exact; unsigned integers do not overflow.
* Arrays filled entry by entry through a moving pointer are lists in the order of filling.  A processor may fill fewer entries
  than it has points; the entries not filled are not in the lists.
-/

namespace Verif.Grid

open Verif Verif.Mech

/-- A cell: the core of a layer, or a cell of a ring. -/
inductive Place where
  | core (k : Nat)
  | ring (c : Cell)
deriving DecidableEq

/-- The global id of a cell.
Models src/io/mesh_input/quick_grid/QuickGrid.cxx:1777, 1805. -/
def Place.gid (nx ny : Nat) : Place → Nat
  | .core k => k * (nx * ny + 1)
  | .ring c => 1 + c.i + c.j * nx + c.k * (nx * ny + 1)

/-- The variables of the loops and the cells visited so far.  `here` is `cellLocator`. -/
structure SolidWalk where
  cell : Nat
  iStart : Nat
  jStart : Nat
  here : Cell
  out : List Place

/-- The loop over `i`, at most `fuel` passes.
Models src/io/mesh_input/quick_grid/QuickGrid.cxx:1800-1817. -/
def solidRow (nx my j k : Nat) : Nat → Nat → SolidWalk → SolidWalk
  | 0, _, w => w
  | fuel + 1, i, w =>
      if i < nx ∧ w.cell < my then
        solidRow nx my j k fuel (i + 1)
          { w with
            cell := w.cell + 1, iStart := 0, here := { w.here with i := w.here.i + 1 },
            out := w.out ++ [.ring ⟨i, j, k⟩] }
      else w

/-- The loop over `j`, at most `fuel` passes.
Models src/io/mesh_input/quick_grid/QuickGrid.cxx:1794-1831. -/
def solidPlane (nx ny my k : Nat) : Nat → Nat → SolidWalk → SolidWalk
  | 0, _, w => w
  | fuel + 1, j, w =>
      if j < ny ∧ w.cell < my then
        let w1 := solidRow nx my j k nx w.iStart { w with jStart := 0, here := { w.here with j := j } }
        solidPlane nx ny my k fuel (j + 1) { w1 with here := nextRow nx ny my w1.cell w1.here }
      else w

/-- The core of a layer, if the layer is begun here.
Models src/io/mesh_input/quick_grid/QuickGrid.cxx:1766-1791. -/
def solidCore (k : Nat) (w : SolidWalk) : SolidWalk :=
  if w.jStart = 0 ∧ w.iStart = 0 then { w with cell := w.cell + 1, out := w.out ++ [.core k] } else w

/-- The loop over `k`, at most `fuel` passes.
Models src/io/mesh_input/quick_grid/QuickGrid.cxx:1761-1832. -/
def solidBody (nx ny nz my : Nat) : Nat → Nat → SolidWalk → SolidWalk
  | 0, _, w => w
  | fuel + 1, k, w =>
      if k < nz ∧ w.cell < my then
        let w1 := solidCore k { w with here := { w.here with k := k } }
        solidBody nx ny nz my fuel (k + 1) (solidPlane nx ny my k ny w1.jStart w1)
      else w

/-- The cells of a processor, from the locator left by the one before, and the new locator.
Models src/io/mesh_input/quick_grid/QuickGrid.cxx:1755-1832, 1846. -/
def solidWalk (nx ny nz my : Nat) (c : Cell) : SolidWalk :=
  solidBody nx ny nz my nz c.k { cell := 0, iStart := c.i, jStart := c.j, here := c, out := [] }

/-- The arguments of the constructor.
Models src/io/mesh_input/quick_grid/QuickGrid.cxx:1604-1610. -/
structure SolidSpec where
  radius : ℝ
  rings : Nat
  zStart : ℝ
  length : ℝ

/-- `coreRadius`.
Models src/io/mesh_input/quick_grid/QuickGrid.cxx:1623-1627. -/
noncomputable def SolidSpec.coreRadius (S : SolidSpec) : ℝ := S.radius / S.rings / Real.sqrt Real.pi

/-- `raySpec`.
Models src/io/mesh_input/quick_grid/QuickGrid.cxx:1632. -/
noncomputable def SolidSpec.raySpec (S : SolidSpec) : Spec := ⟨S.rings, S.coreRadius, S.radius - S.coreRadius⟩

/-- `dTheta`.
Models src/io/mesh_input/quick_grid/QuickGrid.cxx:1638. -/
noncomputable def SolidSpec.dTheta (S : SolidSpec) : ℝ :=
  2 * Real.sqrt Real.pi / (Real.sqrt Real.pi * S.rings + 1)

/-- `numRays`.
Models src/io/mesh_input/quick_grid/QuickGrid.cxx:1643. -/
noncomputable def SolidSpec.rays (S : SolidSpec) : Nat := truncate (2 * Real.pi / S.dTheta) + 1

/-- `axisSpec`, with the size of the cells along the radius.
Models src/io/mesh_input/quick_grid/QuickGrid.cxx:1649-1655. -/
noncomputable def SolidSpec.axisSpec (S : SolidSpec) : Spec :=
  ⟨truncate (S.length / ((S.radius - S.coreRadius) / S.rings)) + 1, S.zStart, S.length⟩

/-- `TensorProductSolidCylinder`: numbers of cells, positions and volumes. -/
structure SolidGenerator where
  nx : Nat
  ny : Nat
  nz : Nat
  point : Place → V3
  volume : Place → ℝ

/-- The number of cells.
Models src/io/mesh_input/quick_grid/QuickGrid.cxx:1665. -/
def SolidGenerator.total (G : SolidGenerator) : Nat := (G.nx * G.ny + 1) * G.nz

open Classical in
/-- The constructor, with the positions and volumes that `computePdGridData` makes of it.  Division by zero and the conversion
of a number up to -1 are undefined.
Models src/io/mesh_input/quick_grid/QuickGrid.cxx:1604-1693, 1725-1728, 1764, 1783-1788, 1797-1799, 1807-1816. -/
noncomputable def SolidSpec.generator (S : SolidSpec) : Outcome SolidGenerator :=
  if S.rings = 0 ∨ S.radius - S.coreRadius = 0 ∨ S.length / ((S.radius - S.coreRadius) / S.rings) ≤ -1 then .ub
  else .ok
    { nx := S.rings, ny := S.rays, nz := S.axisSpec.n
      point := fun
        | .core k => ![0, 0, S.axisSpec.centers.getD k 0]
        | .ring c => cylinderPoint S.raySpec (ringSpec S.rays) S.axisSpec c
      volume := fun
        | .core _ => Real.pi * S.coreRadius * S.coreRadius * S.axisSpec.cellSize
        | .ring c => S.raySpec.centers.getD c.i 0 * S.raySpec.cellSize * (ringSpec S.rays).cellSize * S.axisSpec.cellSize }

/-- The members of `QuickGridData` that are filled.  `numPoints` is the number of points of the processor.
Models src/io/mesh_input/quick_grid/QuickGridData.h:56-72. -/
structure SolidData where
  globalNumPoints : Nat
  numPoints : Nat
  gids : List Nat
  x : List V3
  volume : List ℝ
  neighborhood : List Nat

/-- `computePdGridData`: no point has neighbors.
Models src/io/mesh_input/quick_grid/QuickGrid.cxx:1706-1847. -/
def SolidGenerator.compute (G : SolidGenerator) (my : Nat) (c : Cell) : Cell × SolidData :=
  let w := solidWalk G.nx G.ny G.nz my c
  (w.here,
    { globalNumPoints := G.nx * G.ny * G.nz + G.nz
      numPoints := my
      gids := w.out.map (Place.gid G.nx G.ny)
      x := w.out.map G.point
      volume := w.out.map G.volume
      neighborhood := [0] })

/-- The loop over processors, from a locator.
Models src/io/mesh_input/quick_grid/QuickGrid.cxx:451-455, 1879-1883. -/
def SolidGenerator.iterate (G : SolidGenerator) : List Nat → Cell → List SolidData
  | [], _ => []
  | my :: rest, c => (G.compute my c).2 :: G.iterate rest (G.compute my c).1

/-- The data made for the processors, in their order.
Models src/io/mesh_input/quick_grid/QuickGrid.cxx:443-449, 1675, 1870-1883. -/
def SolidGenerator.data (G : SolidGenerator) (procs : Nat) : Outcome (List SolidData) := do
  let counts ← cellsPerProc G.total procs
  .ok (G.iterate counts ⟨0, 0, 0⟩)

end Verif.Grid
