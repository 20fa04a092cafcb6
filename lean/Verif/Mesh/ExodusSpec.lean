import Verif.Mesh.ExodusModel
import Verif.Geometry.Spec

/-! Specification vocabulary for C122 and C123. -/

noncomputable section

namespace Verif.Mesh

open Verif Verif.Mech Verif.Neigh Verif.Geometry

/-- The elements of a mesh in the order of the file: block and number within the block. -/
def elements (bs : List ElemBlock) : List (ElemBlock × Nat) :=
  bs.flatMap fun b => (List.range b.numElem).map fun e => (b, e)

/-- Node `c` (counted from zero) is the `i`-th node of element `e` of the block. -/
def HasNode (b : ElemBlock) (e i c : Nat) : Prop :=
  i < b.nodesPerElem ∧ b.conn[e * b.nodesPerElem + i]? = some (c + 1)

/-- The position of the `i`-th node of an element. -/
def corner (g : Genesis) (b : ElemBlock) (e i : Nat) : V3 :=
  g.coords.getD (b.conn.getD (e * b.nodesPerElem + i) 0 - 1) 0

/-- A consistent file: every element has an id of its own, the nodes of all elements exist, and no two blocks
have the same name. -/
structure WellFormed (g : Genesis) (ids : List Nat) : Prop where
  nodup : ids.Nodup
  length : ids.length = (elements g.blocks).length
  nodes : ∀ b ∈ g.blocks, ∀ e < b.numElem, ∀ i < b.nodesPerElem,
    ∃ c, HasNode b e i c ∧ c < g.coords.length
  titles : (g.blocks.map ElemBlock.title).Nodup

/-- The element can be converted: a sphere has two attributes, a tetrahedron or hexahedron enough nodes and is
not inverted. -/
def Fit (g : Genesis) (b : ElemBlock) (e : Nat) : Prop :=
  (upper b.elemType = "SPHERE" ∧ 1 ≤ b.nodesPerElem ∧ 2 ≤ b.numAttr ∧
      b.attributes.length = b.numElem * b.numAttr) ∨
  (upper b.elemType ∈ ["TET", "TETRA", "TET4", "TET10"] ∧ 4 ≤ b.nodesPerElem ∧
      0 ≤ det3 (corner g b e 1 - corner g b e 0) (corner g b e 2 - corner g b e 0)
        (corner g b e 3 - corner g b e 0)) ∨
  (upper b.elemType ∈ ["HEX", "HEX8", "HEX20"] ∧ 8 ≤ b.nodesPerElem ∧
      Regular fun i : Fin 8 => corner g b e i)

/-- The point `p` stands for the element: it has the id of its block; a sphere keeps its position and the volume
given as its second attribute; a tetrahedron or hexahedron becomes a point at its centroid with its volume. -/
def Represents (g : Genesis) (b : ElemBlock) (e : Nat) (p : PointData) : Prop :=
  p.block = b.id ∧
  (upper b.elemType = "SPHERE" →
    p.x = corner g b e 0 ∧ b.attributes[e * b.numAttr + 1]? = some p.volume) ∧
  (upper b.elemType ∈ ["TET", "TETRA", "TET4", "TET10"] →
    p.x = (1 / 4 : ℝ) • ∑ i : Fin 4, corner g b e i ∧
    p.volume = det3 (corner g b e 1 - corner g b e 0) (corner g b e 2 - corner g b e 0)
      (corner g b e 3 - corner g b e 0) / 6) ∧
  (upper b.elemType ∈ ["HEX", "HEX8", "HEX20"] →
    p.volume = hexahedronVolume (fun i : Fin 8 => corner g b e i) ∧ 0 < p.volume ∧
    Hull (fun i : Fin 8 => corner g b e i) p.x ∧
    hexCentroidAndVolume (fun i : Fin 8 => corner g b e i) = .ok (p.x, p.volume))

end Verif.Mesh
