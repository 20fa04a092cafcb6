import Verif.Convert.Model

/-! Specification vocabulary for C197 to C200. -/

noncomputable section

namespace Verif.Convert

open Verif Verif.Mech Verif.Neigh Verif.Mesh

/-- The discretization has a point with this id and these data. -/
def Holds (d : Disc) (gid : Nat) (p : PointData) : Prop :=
  ∃ k : Nat, d.ids[k]? = some gid ∧ d.points[k]? = some p

/-- A discretization as it is read from a consistent file: the points have different ids, the blocks divide them,
names are not empty and different, sets hold points. -/
structure Disc.Sound (d : Disc) : Prop where
  nodup : d.ids.Nodup
  points : d.points.length = d.ids.length
  divided : (d.blocks.map Prod.snd).flatten.Perm d.ids
  blockNames : (d.blocks.map Prod.fst).Pairwise (· < ·)
  blockNamed : ∀ b ∈ d.blocks, b.1 ≠ ""
  setNames : (d.sets.map Prod.fst).Pairwise (· < ·)
  setNamed : ∀ s ∈ d.sets, s.1 ≠ ""
  setOnce : ∀ s ∈ d.sets, s.2.Nodup
  setMembers : ∀ s ∈ d.sets, ∀ gid ∈ s.2, gid ∈ d.ids

/-- The names the converter gives to its boundary layers. -/
def layerNames : List String :=
  ["initial_velocity_node_set", "max_x_face", "max_y_face", "max_z_face", "min_x_face", "min_y_face", "min_z_face"]

/-- None of the node sets has the name of a boundary layer that is asked for. -/
def NoClash (p : Params) (d : Disc) : Prop := p.layer ≠ none → ∀ s ∈ d.sets, s.1 ∉ layerNames

/-- The ids in the node sets are smaller than the number of points. -/
def InRange (d : Disc) : Prop := ∀ s ∈ d.sets, ∀ gid ∈ s.2, gid < d.ids.length

/-- The names of the layers at the lower ends of the axes. -/
def minName : Fin 3 → String := !["min_x_face", "min_y_face", "min_z_face"]

/-- The names of the layers at the upper ends of the axes. -/
def maxName : Fin 3 → String := !["max_x_face", "max_y_face", "max_z_face"]

/-- The coordinates of all points are numbers of double precision. -/
def Representable (d : Disc) : Prop := ∀ gid pt, Holds d gid pt → ∀ a, |pt.x a| ≤ dblMax

end Verif.Convert
