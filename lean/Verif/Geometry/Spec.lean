import Verif.Geometry.Model
import Mathlib.LinearAlgebra.Matrix.Determinant.Basic
import Mathlib.MeasureTheory.Integral.IntervalIntegral.Basic

/-! Specification vocabulary for C118 to C121. -/

noncomputable section

namespace Verif.Geometry

open Verif Verif.Mech

/-- The distance of two points. -/
def distance (p q : V3) : ℝ := Real.sqrt (∑ i, (p i - q i) ^ 2)

/-- `p` is a convex combination of the points `n`. -/
def Hull {k : Nat} (n : Fin k → V3) (p : V3) : Prop :=
  ∃ w : Fin k → ℝ, (∀ i, 0 ≤ w i) ∧ ∑ i, w i = 1 ∧ p = ∑ i, w i • n i

/-- The three points do not lie on a line. -/
def Proper (a b c : V3) : Prop := LinearIndependent ℝ ![b - a, c - a]

/-- The faces of a hexahedron of an Exodus mesh, each as a closed path of four nodes that runs
counterclockwise seen from outside. -/
def hexQuads : List (Fin 8 × Fin 8 × Fin 8 × Fin 8) :=
  [(0, 1, 5, 4), (1, 2, 6, 5), (2, 3, 7, 6), (3, 0, 4, 7), (0, 3, 2, 1), (4, 5, 6, 7)]

/-- The middle of four points. -/
def middle (a b c d : V3) : V3 := (1 / 4 : ℝ) • (a + b + c + d)

/-- `a`, `b` and the middle `m` of a face are the corners of one of the four triangles into which the
middle divides the face. -/
def Facet (n : Fin 8 → V3) (a b m : V3) : Prop :=
  ∃ q ∈ hexQuads, m = middle (n q.1) (n q.2.1) (n q.2.2.1) (n q.2.2.2) ∧
    ((a = n q.1 ∧ b = n q.2.1) ∨ (a = n q.2.1 ∧ b = n q.2.2.1) ∨ (a = n q.2.2.1 ∧ b = n q.2.2.2) ∨
      (a = n q.2.2.2 ∧ b = n q.1))

/-- `p` is a point of the surface of the hexahedron, each face being four triangles. -/
def OnSurface (n : Fin 8 → V3) (p : V3) : Prop := ∃ a b m, Facet n a b m ∧ Hull ![a, b, m] p

/-- The mean of the nodes. -/
def hexCenter (n : Fin 8 → V3) : V3 := (1 / 8 : ℝ) • ∑ i, n i

/-- `p` is a point of the hexahedron: it lies between its center and its surface. -/
def Solid (n : Fin 8 → V3) (p : V3) : Prop :=
  ∃ a b m, Facet n a b m ∧ Hull ![a, b, m, hexCenter n] p

/-- The determinant of three vectors. -/
def det3 (u v w : V3) : ℝ := Matrix.det (Matrix.of ![u, v, w])

/-- The element is not distorted: seen from the center, every triangle of the surface is turned
outwards. -/
def Regular (n : Fin 8 → V3) : Prop :=
  ∀ a b m, Facet n a b m → 0 < det3 (a - hexCenter n) (b - hexCenter n) (m - hexCenter n)

/-- The parallelepiped at `o` with edges `u`, `v`, `w`, its nodes in the order of Exodus. -/
def brick (o u v w : V3) : Fin 8 → V3 :=
  ![o, o + u, o + u + v, o + v, o + w, o + u + w, o + u + v + w, o + v + w]

/-- The map of the unit cube to the hexahedron that interpolates the nodes in each coordinate
linearly. -/
def trilinear (n : Fin 8 → V3) (s t r : ℝ) : V3 :=
  ((1 - s) * (1 - t) * (1 - r)) • n 0 + (s * (1 - t) * (1 - r)) • n 1 + (s * t * (1 - r)) • n 2 +
  ((1 - s) * t * (1 - r)) • n 3 + ((1 - s) * (1 - t) * r) • n 4 + (s * (1 - t) * r) • n 5 +
  (s * t * r) • n 6 + ((1 - s) * t * r) • n 7

/-- The Jacobian determinant of `trilinear`. -/
def jacobian (n : Fin 8 → V3) (s t r : ℝ) : ℝ :=
  det3 (deriv (fun s => trilinear n s t r) s) (deriv (fun t => trilinear n s t r) t)
    (deriv (fun r => trilinear n s t r) r)

/-- The volume of the hexahedron: the integral of the Jacobian determinant over the unit cube. -/
def hexahedronVolume (n : Fin 8 → V3) : ℝ :=
  ∫ s in (0 : ℝ)..1, ∫ t in (0 : ℝ)..1, ∫ r in (0 : ℝ)..1, jacobian n s t r

/-- The triangles of the surface of the hexahedron, face by face. -/
def facets (n : Fin 8 → V3) : List (V3 × V3 × V3) :=
  hexQuads.flatMap fun q =>
    let m := middle (n q.1) (n q.2.1) (n q.2.2.1) (n q.2.2.2)
    [(n q.1, n q.2.1, m), (n q.2.1, n q.2.2.1, m), (n q.2.2.1, n q.2.2.2, m), (n q.2.2.2, n q.1, m)]

/-- The signed volume between the origin and a face with the corners `a`, `b`, `c`, `d`. -/
def cone (a b c d : V3) : ℝ :=
  (det3 a b (middle a b c d) + det3 b c (middle a b c d) + det3 c d (middle a b c d) +
    det3 d a (middle a b c d)) / 6

end Verif.Geometry
