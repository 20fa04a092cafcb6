import Verif.Grid.Model
import Verif.Neigh.Spec
import Verif.Mech.Spec

/-! # Generated meshes (specification) -/

namespace Verif.Grid

open Verif Verif.Mech Verif.Neigh

/-- The processors' data `ds` describe the points `0 .. total - 1`, each on one processor and in order,
with positions `X`, volumes `V` and lists of neighbors `N`. -/
structure Describes (ds : List Data) (total : Nat) (X : Nat → V3) (V : Nat → ℝ)
    (N : Nat → List Nat) : Prop where
  gids : (ds.map Data.gids).flatten = List.range total
  globalNumPoints : ∀ d ∈ ds, d.globalNumPoints = total
  x : ∀ d ∈ ds, d.x = d.gids.map X
  volume : ∀ d ∈ ds, d.volume = d.gids.map V
  neighborhood : ∀ d ∈ ds, d.neighborhood = encode (d.gids.map N)
  neighborhoodPtr : ∀ d ∈ ds, d.neighborhoodPtr = offsets (d.gids.map N)

/-- The middle of cell `i` when an interval is cut in `n` equal parts. -/
noncomputable def mid (x0 length : ℝ) (n i : Nat) : ℝ := x0 + (i + 1 / 2) * (length / n)

/-- The data describe the cells of a box cut in equal parts along its sides. -/
structure BoxMesh (xs ys zs : Spec) (ds : List Data) (X : Nat → V3) (V : Nat → ℝ)
    (N : Nat → List Nat) : Prop where
  describes : Describes ds (xs.n * ys.n * zs.n) X V N
  position : ∀ i j k, i < xs.n → j < ys.n → k < zs.n →
    X (i + xs.n * (j + ys.n * k)) =
      ![mid xs.x0 xs.length xs.n i, mid ys.x0 ys.length ys.n j, mid zs.x0 zs.length zs.n k]
  volume : ∀ g, g < xs.n * ys.n * zs.n →
    V g = (xs.length / xs.n) * (ys.length / ys.n) * (zs.length / zs.n)

/-- The data describe the cells of a hollow cylinder about the z axis, cut in `rays` equal parts around
and `layers` along it. -/
structure CylinderMesh (R : Ring) (rays layers : Nat) (ds : List Data) (X : Nat → V3) (V : Nat → ℝ)
    (N : Nat → List Nat) : Prop where
  describes : Describes ds (R.rings * rays * layers) X V N
  position : ∀ i j k, i < R.rings → j < rays → k < layers →
    X (i + R.rings * (j + rays * k)) =
      ![mid R.inner (R.outer - R.inner) R.rings i * Real.cos (mid 0 (2 * Real.pi) rays j),
        mid R.inner (R.outer - R.inner) R.rings i * Real.sin (mid 0 (2 * Real.pi) rays j),
        mid R.zStart R.length layers k]
  volume : ∀ i j k, i < R.rings → j < rays → k < layers →
    V (i + R.rings * (j + rays * k)) =
      mid R.inner (R.outer - R.inner) R.rings i * ((R.outer - R.inner) / R.rings) *
        (2 * Real.pi / rays) * (R.length / layers)

/-- The distance of two points. -/
noncomputable def distance (p q : V3) : ℝ :=
  Real.sqrt ((p 0 - q 0) ^ 2 + (p 1 - q 1) ^ 2 + (p 2 - q 2) ^ 2)

/-- All the volumes. -/
noncomputable def totalVolume (ds : List Data) : ℝ := ((ds.map Data.volume).flatten).sum

end Verif.Grid
