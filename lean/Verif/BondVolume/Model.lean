import Verif.Grid.Model
import Mathlib.Analysis.SpecialFunctions.Complex.Arg

/-!
# Volumes of bonds (model)

Models the calculators of src/io/bond_volume/quick_grid/calculators.cxx and .h, which cut the cell of a neighbor into
parts and sum the volumes of those inside the horizon, the two functions `compute_bond_volume`, and the functions of
src/materials/material_utilities.cxx, namespace `WITH_BOND_VOLUME`, which take the volumes so computed.

Arithmetic is exact; a division by zero and a read past the end of an array are `.ub`.  `atan2` is `Complex.arg`.
Not modelled: `get_Bond_Volume_Calculator`, which reads a file, and the diagonals of the cells.
-/

noncomputable section

namespace Verif.BondVolume

open Verif Verif.Neigh Verif.Mech Verif.Grid
open scoped Classical

/-- `InsideSphere::operator()`.
Models src/io/utilities/Vector3D.h:156-169. -/
def inside (radius : ℝ) (center p : V3) : Prop :=
  let dx := p 0 - center 0
  let dy := p 1 - center 1
  let dz := p 2 - center 2
  dx * dx + dy * dy + dz * dz - radius * radius < 0

/-- `nX`, `nY`, `nZ` and `nR`, `nTheta`, `nZ`.
Models src/io/bond_volume/quick_grid/calculators.h:86-88, 129-131. -/
def parts : Nat := 16

/-- `VolumeFractionCalculator`: the sides of the cells and the horizon.
Models src/io/bond_volume/quick_grid/calculators.h:116-119. -/
structure BoxCalc where
  DX : ℝ
  DY : ℝ
  DZ : ℝ
  horizon : ℝ

/-- The constructor.
Models src/io/bond_volume/quick_grid/calculators.h:123-137. -/
def BoxCalc.ofSpecs (xs ys zs : Spec) (horizon : ℝ) : BoxCalc := ⟨xs.cellSize, ys.cellSize, zs.cellSize, horizon⟩

/-- `VolumeFractionCalculator::operator()`.
Models src/io/bond_volume/quick_grid/calculators.cxx:234-267. -/
def BoxCalc.volume (B : BoxCalc) (P Q : V3) : ℝ :=
  let xs : Spec := ⟨parts, Q 0 - B.DX / 2, B.DX⟩
  let ys : Spec := ⟨parts, Q 1 - B.DY / 2, B.DY⟩
  let zs : Spec := ⟨parts, Q 2 - B.DZ / 2, B.DZ⟩
  let dV := xs.cellSize * ys.cellSize * zs.cellSize
  xs.centers.foldl (fun v x =>
    ys.centers.foldl (fun v y =>
      zs.centers.foldl (fun v z => v + if inside B.horizon P ![x, y, z] then dV else 0) v) v) 0

/-- `VolumeFractionCalculator::cellVolume`.
Models src/io/bond_volume/quick_grid/calculators.h:148. -/
def BoxCalc.cellVolume (B : BoxCalc) (_q : V3) : ℝ := B.DX * B.DY * B.DZ

/-- `RingVolumeFractionCalculator`: the sizes of the cells, the center of the ring and the horizon.
Models src/io/bond_volume/quick_grid/calculators.h:66-69. -/
structure RingCalc where
  DR : ℝ
  Dtheta : ℝ
  DZ : ℝ
  c : V3
  horizon : ℝ

/-- The constructor, from the specifications of the ring and of the axis.
Models src/io/bond_volume/quick_grid/calculators.h:80-97. -/
def RingCalc.ofSpecs (rays ring axis : Spec) (center : V3) (horizon : ℝ) : RingCalc :=
  ⟨rays.cellSize, ring.cellSize, axis.cellSize, center, horizon⟩

/-- The cell of a point: the numbers of lines 187-203 for the radius, the angle and the height.
Models src/io/bond_volume/quick_grid/calculators.cxx:187-203 (and 130-146); `axis` is `calculators.h:90`. -/
def RingCalc.cell (R : RingCalc) (Q : V3) : Spec × Spec × Spec :=
  let qc : V3 := Q - R.c
  let axis : V3 := ![0, 0, 1]
  let h := qc 0 * axis 0 + qc 1 * axis 1 + qc 2 * axis 2
  let qZ : V3 := h • axis
  let qR : V3 := qc - qZ
  let rC := len qR
  let zC := R.c 2 + h
  let thetaC := Complex.arg ⟨qR 0, qR 1⟩
  (⟨parts, rC - R.DR / 2, R.DR⟩, ⟨parts, thetaC - R.Dtheta / 2, R.Dtheta⟩, ⟨parts, zC - R.DZ / 2, R.DZ⟩)

/-- `RingVolumeFractionCalculator::cellVolume`.
Models src/io/bond_volume/quick_grid/calculators.cxx:116-168. -/
def RingCalc.cellVolume (R : RingCalc) (q : V3) : ℝ :=
  let rs := (R.cell q).1
  let ts := (R.cell q).2.1
  let zs := (R.cell q).2.2
  rs.centers.foldl (fun v r =>
    ts.centers.foldl (fun v _ =>
      zs.centers.foldl (fun v _ => v + r * rs.cellSize * ts.cellSize * zs.cellSize) v) v) 0

/-- `RingVolumeFractionCalculator::operator()`.
Models src/io/bond_volume/quick_grid/calculators.cxx:171-232. -/
def RingCalc.volume (R : RingCalc) (P Q : V3) : ℝ :=
  let rs := (R.cell Q).1
  let ts := (R.cell Q).2.1
  let zs := (R.cell Q).2.2
  rs.centers.foldl (fun v r =>
    ts.centers.foldl (fun v theta =>
      zs.centers.foldl (fun v z =>
        v + if inside R.horizon P ![r * Real.cos theta, r * Real.sin theta, z] then
          r * rs.cellSize * ts.cellSize * zs.cellSize else 0) v) v) 0

/-- The inner loop of `compute_bond_volume`, over `k` neighbors from `pos` on of the point at `P`.
Models src/io/bond_volume/quick_grid/calculators.cxx:289-293 (and 310-314). -/
def bondVolumesOf (c : V3 → V3 → ℝ) (l : List Nat) (x : Nat → V3) (P : V3) : Nat → Nat → Outcome (List ℝ)
  | 0, _ => .ok []
  | k + 1, pos => do
    let localId ← readAt l pos
    let rest ← bondVolumesOf c l x P k (pos + 1)
    .ok (c P (x localId) :: rest)

/-- `compute_bond_volume` for all points: what is written to `bond_volumes`, for the `n` points from `p` on.
Models src/io/bond_volume/quick_grid/calculators.cxx:270-296. -/
def bondVolumes (c : V3 → V3 → ℝ) (l : List Nat) (x : Nat → V3) : Nat → Nat → Nat → Outcome (List ℝ)
  | 0, _, _ => .ok []
  | n + 1, p, pos => do
    let numNeigh ← readAt l pos
    let here ← bondVolumesOf c l x (x p) numNeigh (pos + 1)
    let rest ← bondVolumes c l x n (p + 1) (pos + 1 + numNeigh)
    .ok (here ++ rest)

/-- `compute_bond_volume` for one point.
Models src/io/bond_volume/quick_grid/calculators.cxx:298-319. -/
def bondVolumesAt (c : V3 → V3 → ℝ) (X : V3) (l : List Nat) (x : Nat → V3) : Outcome (List ℝ) := do
  let numNeigh ← readAt l 0
  bondVolumesOf c l x X numNeigh 1

/-- The neighbors of the point with the volumes of the bonds, in the order of the loops; `none` of the volumes may be
missing.
Models the reads of src/materials/material_utilities.cxx:542-546 (and 591-596, 650-654). -/
def paired (l : List Nat) (bv : List ℝ) : Outcome (List (Nat × ℝ)) := do
  let ns ← neighborsAt l 0
  if ns.length ≤ bv.length then .ok (ns.zip bv) else .ub

/-- `WITH_BOND_VOLUME::computeWeightedVolume`.
Models src/materials/material_utilities.cxx:531-559. -/
def weightedVolume (omega : ℝ → ℝ → ℝ) (horizon : ℝ) (X : V3) (x : Nat → V3) (bv : List ℝ) (l : List Nat) :
    Outcome ℝ := do
  let bs ← paired l bv
  .ok (bs.foldl (fun m b =>
    let d := x b.1 - X
    let zetaSquared := d 0 * d 0 + d 1 * d 1 + d 2 * d 2
    m + omega (Real.sqrt zetaSquared) horizon * zetaSquared * b.2) 0)

/-- `WITH_BOND_VOLUME::computeDilatation`.  There is no division if there are no neighbors.
Models src/materials/material_utilities.cxx:570-611. -/
def dilatation (omega : ℝ → ℝ → ℝ) (horizon : ℝ) (X : V3) (x : Nat → V3) (Y : V3) (y : Nat → V3) (bv : List ℝ)
    (m : ℝ) (l : List Nat) : Outcome ℝ := do
  let bs ← paired l bv
  if bs ≠ [] ∧ m = 0 then .ub
  else .ok (bs.foldl (fun theta b =>
    let d := len (x b.1 - X)
    let e := len (y b.1 - Y) - d
    theta + 3 * omega d horizon * (1 - 0) * d * e * b.2 / m) 0)

/-- `WITH_BOND_VOLUME::compute_norm_2_deviatoric_extension`.  The call of `computeDilatation` in line 638 leaves out
`OMEGA`; its default is the influence function that has been selected, here `selected`.
Models src/materials/material_utilities.cxx:613-681 and .h:247-270. -/
def deviatoricNorm2 (selected omega : ℝ → ℝ → ℝ) (horizon : ℝ) (X : V3) (x : Nat → V3) (Y : V3) (y : Nat → V3)
    (bv : List ℝ) (m : ℝ) (l : List Nat) : Outcome ℝ := do
  let theta ← dilatation selected horizon X x Y y bv m l
  let bs ← paired l bv
  .ok (bs.foldl (fun edSquared b =>
    let zeta := len (x b.1 - X)
    let dY := len (y b.1 - Y)
    let ed := dY - zeta - theta * zeta / 3
    edSquared + ed * omega zeta horizon * ed * b.2) 0)

end Verif.BondVolume
