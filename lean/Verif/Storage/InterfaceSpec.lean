import Verif.Storage.InterfaceModel
import Mathlib.Data.Fin.VecNotation

/-!
# Interfaces: notions used in the statements
-/

noncomputable section

namespace Verif.Storage

open Verif Verif.Mech
open scoped Classical

/-- All elements are hexahedra, with distinct nodes. -/
def AllHex (mesh : List Bonded) : Prop :=
  ∀ b ∈ mesh, (b.self.nodes.length = 8 ∧ b.self.nodes.Nodup) ∧
    ∀ n ∈ b.neighbors, n.nodes.length = 8 ∧ n.nodes.Nodup

/-- All elements are tetrahedra, with distinct nodes, and neighbours are other elements. -/
def AllTet (mesh : List Bonded) : Prop :=
  ∀ b ∈ mesh, (b.self.nodes.length = 4 ∧ b.self.nodes.Nodup) ∧
    ∀ n ∈ b.neighbors, n.nodes.length = 4 ∧ n.nodes.Nodup

/-- No element is listed twice, and no neighbour of an element is. -/
def Distinct (mesh : List Bonded) : Prop :=
  (mesh.map fun b => b.self.gid).Nodup ∧ ∀ b ∈ mesh, (b.neighbors.map Elem.gid).Nodup

/-- The coordinates of the corners of the unit cube, in the order in which Exodus numbers the nodes of
a hexahedron. -/
def cornerAt : Fin 8 → Fin 3 → Bool :=
  ![![false, false, false], ![true, false, false], ![true, true, false], ![false, true, false],
    ![false, false, true], ![true, false, true], ![true, true, true], ![false, true, true]]

/-- The corner lies on the side of the cube where the coordinate has the given value. -/
def OnSide (axis : Fin 3) (value : Bool) (k : Fin 8) : Prop := cornerAt k axis = value

/-- At least three of the corners of a side of the first hexahedron are nodes of the second. -/
def HexFace (e n : Elem) : Prop :=
  ∃ axis value a b c, OnSide axis value a ∧ OnSide axis value b ∧ OnSide axis value c ∧
    a ≠ b ∧ a ≠ c ∧ b ≠ c ∧ ∀ k ∈ [a, b, c], ∃ v ∈ n.nodes, e.nodes[k.val]? = some v

/-- The four corners of a side of the cube. -/
def IsSide (f : List Nat) : Prop :=
  f.Nodup ∧ ∃ axis value, ∀ k : Fin 8, k.val ∈ f ↔ OnSide axis value k

/-- At least three nodes are common. -/
def TetFace (e n : Elem) : Prop :=
  ∃ a b c, a ≠ b ∧ a ≠ c ∧ b ≠ c ∧ ∀ v ∈ [a, b, c], v ∈ e.nodes ∧ v ∈ n.nodes

/-- The pairs of elements: left and right. -/
def pairs (is : List Interface) : List (Nat × Nat) := is.map fun i => (i.left, i.right)

/-- The openings of the interfaces with `n` nodes for the given positions, in order. -/
def openings (is : List Interface) (n : Nat) (x y : Nat → V3) : List ℝ :=
  (is.filter fun i => i.count = n).map fun i =>
    len (y i.right - y i.left) - len (x i.right - x i.left)

end Verif.Storage
