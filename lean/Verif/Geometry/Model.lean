import Verif.Common.Outcome
import Verif.Mech.Model

/-!
# Geometry of elements (model)

Models src/io/discretization/Peridigm_GeometryUtils.cpp: volumes and centroids of tetrahedra and
hexahedra, and the tests whether an element is inside, outside or across the surface of a sphere.

* Numbers are exact.
* The arrays of coordinates are functions from node numbers; `nodeCoordinates + 3*i` is node `i`.
* Quotients `0/0` occur for triangles without area and edges without length.  They are NaN in the
  code and every comparison with NaN is false; the model writes out these comparisons.
-/

noncomputable section

namespace Verif.Geometry

open Verif Verif.Mech
open scoped Classical

/-- `dot`.
Models src/io/discretization/Peridigm_GeometryUtils.cpp:864-870. -/
def dot (a b : V3) : ℝ := a 0 * b 0 + a 1 * b 1 + a 2 * b 2

/-- `cross`.
Models src/io/discretization/Peridigm_GeometryUtils.cpp:872-880. -/
def cross (a b : V3) : V3 :=
  ![a 1 * b 2 - a 2 * b 1, a 2 * b 0 - a 0 * b 2, a 0 * b 1 - a 1 * b 0]

/-- `scalarTripleProduct`.
Models src/io/discretization/Peridigm_GeometryUtils.cpp:911-919. -/
def triple (a b c : V3) : ℝ :=
  a 0 * (b 1 * c 2 - b 2 * c 1) + a 1 * (b 2 * c 0 - b 0 * c 2) + a 2 * (b 0 * c 1 - b 1 * c 0)

/-! ## Volumes and centroids -/

/-- `tetVolume`: terminates on a negative volume.
Models src/io/discretization/Peridigm_GeometryUtils.cpp:375-392 (and 366-373). -/
def tetVolume (p q r s : V3) : Outcome ℝ :=
  if triple (q - p) (r - p) (s - p) / 6 < 0 then .fail .terminate
  else .ok (triple (q - p) (r - p) (s - p) / 6)

/-- `tetCentroid`.
Models src/io/discretization/Peridigm_GeometryUtils.cpp:358-364. -/
def tetCentroid (p q r s : V3) : V3 := fun i => (p i + q i + r i + s i) * (1 / 4)

/-- `tetCentroidAndVolume`: centroid and volume.
Models src/io/discretization/Peridigm_GeometryUtils.cpp:52-67. -/
def tetCentroidAndVolume (n : Fin 4 → V3) : Outcome (V3 × ℝ) := do
  let v ← tetVolume (n 0) (n 1) (n 2) (n 3)
  .ok (tetCentroid (n 0) (n 1) (n 2) (n 3), v)

/-- The barycenter of four nodes.
Models the lines like src/io/discretization/Peridigm_GeometryUtils.cpp:88 and 694. -/
def mid4 (a b c d : V3) : V3 := fun i => 1 / 4 * (a i + b i + c i + d i)

/-- `f0` to `f5`.
Models src/io/discretization/Peridigm_GeometryUtils.cpp:87-103 (and 693-709). -/
def face (n : Fin 8 → V3) : Fin 6 → V3
  | 0 => mid4 (n 0) (n 1) (n 4) (n 5)
  | 1 => mid4 (n 1) (n 2) (n 5) (n 6)
  | 2 => mid4 (n 2) (n 3) (n 6) (n 7)
  | 3 => mid4 (n 0) (n 3) (n 4) (n 7)
  | 4 => mid4 (n 0) (n 1) (n 2) (n 3)
  | 5 => mid4 (n 4) (n 5) (n 6) (n 7)

/-- `c`, the node in the middle of the hexahedron.
Models src/io/discretization/Peridigm_GeometryUtils.cpp:105-106. -/
def hexMid (n : Fin 8 → V3) : V3 := fun i => 1 / 2 * (face n 4 i + face n 5 i)

/-- `coord[0]`, `coord[1]` and the number of the face of the 24 triangles of the surface, in their
order.
Models src/io/discretization/Peridigm_GeometryUtils.cpp:117-325 (and 715-834). -/
def triangles : List (Fin 8 × Fin 8 × Fin 6) :=
  [(1, 0, 0), (5, 1, 0), (4, 5, 0), (0, 4, 0),
   (2, 1, 1), (6, 2, 1), (5, 6, 1), (1, 5, 1),
   (3, 2, 2), (7, 3, 2), (6, 7, 2), (2, 6, 2),
   (0, 3, 3), (3, 7, 3), (7, 4, 3), (4, 0, 3),
   (0, 1, 4), (1, 2, 4), (2, 3, 4), (3, 0, 4),
   (5, 4, 5), (4, 7, 5), (7, 6, 5), (6, 5, 5)]

/-- One of the 24 tetrahedra: volume and volume times centroid are added up.
Models src/io/discretization/Peridigm_GeometryUtils.cpp:118-125 and the 23 blocks that follow. -/
def addTet (n : Fin 8 → V3) (acc : ℝ × V3) (t : Fin 8 × Fin 8 × Fin 6) : Outcome (ℝ × V3) := do
  let v ← tetVolume (n t.1) (n t.2.1) (face n t.2.2) (hexMid n)
  .ok (acc.1 + v, fun i => acc.2 i + tetCentroid (n t.1) (n t.2.1) (face n t.2.2) (hexMid n) i * v)

/-- The sums over the 24 tetrahedra.
Models src/io/discretization/Peridigm_GeometryUtils.cpp:109-332. -/
def hexSums (n : Fin 8 → V3) : Outcome (ℝ × V3) :=
  triangles.foldlM (addTet n) (0, fun _ => 0)

/-- `hexCentroidAndVolume` with a place for the centroid; a volume of zero is divided by.
Models src/io/discretization/Peridigm_GeometryUtils.cpp:69-339. -/
def hexCentroidAndVolume (n : Fin 8 → V3) : Outcome (V3 × ℝ) := do
  let s ← hexSums n
  if s.1 = 0 then .ub else .ok (fun i => s.2 i / s.1, s.1)

/-- `hexVolume`.
Models src/io/discretization/Peridigm_GeometryUtils.cpp:341-356. -/
def hexVolume (n : Fin 8 → V3) : Outcome ℝ := do
  let s ← hexSums n
  .ok s.1

/-! ## Elements and spheres -/

/-- `SphereIntersection`.
Models src/io/discretization/Peridigm_GeometryUtils.hpp:55. -/
inductive SphereIntersection where
  | inside
  | outside
  | intersects
deriving DecidableEq

/-- The number of nodes in the sphere, relative to the center.
Models src/io/discretization/Peridigm_GeometryUtils.cpp:429-436 (and 578-589, 652-663). -/
def numWithin (rr : ℝ) (ps : List V3) : Nat := (ps.filter fun p => dot p p < rr).length

/-- The plane of the triangle is farther away than the radius.
Models src/io/discretization/Peridigm_GeometryUtils.cpp:446-469. -/
def planeSeparates (rr : ℝ) (A B C : V3) : Prop :=
  dot (cross (B - A) (C - A)) (cross (B - A) (C - A)) ≠ 0 ∧
    dot A (cross (B - A) (C - A)) * dot A (cross (B - A) (C - A)) /
      dot (cross (B - A) (C - A)) (cross (B - A) (C - A)) > rr

/-- The other two nodes are beyond the plane through `A` perpendicular to it.
Models src/io/discretization/Peridigm_GeometryUtils.cpp:478-502. -/
def vertexSeparates (A B C : V3) : Prop := dot A B > dot A A ∧ dot A C > dot A A

/-- `Q`, the point of the line `AB` next to the center, where the line is one.
Models src/io/discretization/Peridigm_GeometryUtils.cpp:511-519 (and 537-542, 555-560). -/
def project (A B : V3) : V3 := A + (dot (0 - A) (B - A) / dot (B - A) (B - A)) • (B - A)

/-- `Q` is farther away than the radius and `C` beyond the plane through `Q` perpendicular to it.
Models src/io/discretization/Peridigm_GeometryUtils.cpp:511-532 (and 535-550, 553-568). -/
def edgeSeparates (rr : ℝ) (A B C : V3) : Prop :=
  dot (B - A) (B - A) ≠ 0 ∧
    dot (0 - project A B) (0 - project A B) > rr ∧ dot (0 - project A B) (C - project A B) < 0

/-- A triangle with no node in the sphere.
Models src/io/discretization/Peridigm_GeometryUtils.cpp:446-571. -/
def separationTest (rr : ℝ) (A B C : V3) : SphereIntersection :=
  if planeSeparates rr A B C then .outside
  else if vertexSeparates A B C then .outside
  else if vertexSeparates B A C then .outside
  else if vertexSeparates C A B then .outside
  else if edgeSeparates rr A B C then .outside
  else if edgeSeparates rr B C A then .outside
  else if edgeSeparates rr C A B then .outside
  else .intersects

/-- `triangleSphereIntersection`.
Models src/io/discretization/Peridigm_GeometryUtils.cpp:394-572. -/
def triangleSphere (a b c center : V3) (radius : ℝ) : SphereIntersection :=
  match numWithin (radius * radius) [a - center, b - center, c - center] with
  | 0 => separationTest (radius * radius) (a - center) (b - center) (c - center)
  | 3 => .inside
  | _ => .intersects

/-- The loop over the triangles of the surface: leaves at the first that intersects; the flags are
`allInside` and `allOutside`.
Models src/io/discretization/Peridigm_GeometryUtils.cpp:608-645 (and 712-851). -/
def surfaceLoop (center : V3) (radius : ℝ) :
    List (V3 × V3 × V3) → Bool → Bool → Outcome SphereIntersection
  | [], allInside, allOutside =>
      if allInside && allOutside then .fail .terminate
      else if !allInside && !allOutside then .fail .terminate
      else if allOutside then .ok .outside
      else .ok .inside
  | (a, b, c) :: rest, allInside, allOutside =>
      match triangleSphere a b c center radius with
      | .intersects => .ok .intersects
      | .inside => surfaceLoop center radius rest allInside false
      | .outside => surfaceLoop center radius rest false allOutside

/-- The faces of a tetrahedron.
Models src/io/discretization/Peridigm_GeometryUtils.cpp:608-629. -/
def tetFaces (n : Fin 4 → V3) : List (V3 × V3 × V3) :=
  [(n 0, n 1, n 2), (n 0, n 1, n 3), (n 0, n 2, n 3), (n 1, n 2, n 3)]

/-- The triangles of the surface of a hexahedron.
Models src/io/discretization/Peridigm_GeometryUtils.cpp:712-834. -/
def hexFaces (n : Fin 8 → V3) : List (V3 × V3 × V3) :=
  triangles.map fun t => (n t.1, n t.2.1, face n t.2.2)

/-- `tetrahedronSphereIntersection`.
Models src/io/discretization/Peridigm_GeometryUtils.cpp:574-646. -/
def tetrahedronSphere (n : Fin 4 → V3) (center : V3) (radius : ℝ) : Outcome SphereIntersection :=
  match numWithin (radius * radius) ((List.finRange 4).map fun i => n i - center) with
  | 4 => .ok .inside
  | 0 => surfaceLoop center radius (tetFaces n) true true
  | _ => .ok .intersects

/-- `hexahedronSphereIntersection`.
Models src/io/discretization/Peridigm_GeometryUtils.cpp:648-852. -/
def hexahedronSphere (n : Fin 8 → V3) (center : V3) (radius : ℝ) : Outcome SphereIntersection :=
  match numWithin (radius * radius) ((List.finRange 8).map fun i => n i - center) with
  | 8 => .ok .inside
  | 0 => surfaceLoop center radius (hexFaces n) true true
  | _ => .ok .intersects

end Verif.Geometry
