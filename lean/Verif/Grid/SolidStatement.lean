import Verif.Grid.SolidModel
import Verif.Grid.Spec

/-! # Solid cylinders (specification) -/

namespace Verif.Grid

open Verif Verif.Mech

/-- Radius of the core: its area is that of a square whose side is the radius divided by the number of rings. -/
noncomputable def innerRadius (S : SolidSpec) : ℝ := S.radius / (S.rings * Real.sqrt Real.pi)

/-- The data describe a solid cylinder about the z axis: a core in every layer, and rings about it cut in `rays` equal parts,
each cell once and in the order of the ids, with positions `X` and volumes `V`. -/
structure SolidMesh (S : SolidSpec) (rays layers : Nat) (ds : List SolidData) (X : Nat → V3) (V : Nat → ℝ) : Prop where
  gids : (ds.map SolidData.gids).flatten = List.range ((S.rings * rays + 1) * layers)
  global : ∀ d ∈ ds, d.globalNumPoints = (S.rings * rays + 1) * layers
  points : ∀ d ∈ ds, d.gids.length = d.numPoints
  x : ∀ d ∈ ds, d.x = d.gids.map X
  volume : ∀ d ∈ ds, d.volume = d.gids.map V
  core : ∀ k, k < layers →
    X ((S.rings * rays + 1) * k) = ![0, 0, mid S.zStart S.length layers k] ∧
    V ((S.rings * rays + 1) * k) = Real.pi * innerRadius S ^ 2 * (S.length / layers)
  ring : ∀ i j k, i < S.rings → j < rays → k < layers →
    X (1 + i + S.rings * j + (S.rings * rays + 1) * k) =
      ![mid (innerRadius S) (S.radius - innerRadius S) S.rings i * Real.cos (mid 0 (2 * Real.pi) rays j),
        mid (innerRadius S) (S.radius - innerRadius S) S.rings i * Real.sin (mid 0 (2 * Real.pi) rays j),
        mid S.zStart S.length layers k] ∧
    V (1 + i + S.rings * j + (S.rings * rays + 1) * k) =
      mid (innerRadius S) (S.radius - innerRadius S) S.rings i * ((S.radius - innerRadius S) / S.rings) *
        (2 * Real.pi / rays) * (S.length / layers)

/-- Some processor but the last has as its last point a core, if all but the last have the same number of points. -/
def CutAtCore (S : SolidSpec) (rays layers procs : Nat) : Prop :=
  ∃ m, 0 < m ∧ m < procs ∧
    (m * ((S.rings * rays + 1) * layers / procs)) % (S.rings * rays + 1) = 1

end Verif.Grid
