import Verif.Mech.Model
import Mathlib.LinearAlgebra.CrossProduct

/-!
# Model of the bond filters

Models /repo/src/io/pdneigh/BondFilter.cxx and BondFilter.h.  Numbers are exact reals; a division by
zero (a finite plane with an edge of length zero, a degenerate triangle) is reported as `ub`.
-/

noncomputable section

namespace Verif.Filter

open Verif Verif.Mech
open scoped Classical

/-- `Dot`, src/io/utilities/Vector3D.h:111-115. -/
def dot (u w : V3) : ℝ := u 0 * w 0 + u 1 * w 1 + u 2 * w 2

/-- `Cross`, src/io/utilities/Vector3D.h:117-128. -/
def cross (u w : V3) : V3 :=
  ![u 1 * w 2 - u 2 * w 1, u 2 * w 0 - u 0 * w 2, u 0 * w 1 - u 1 * w 0]

/-- `DBL_MAX` of IEEE double precision. -/
def dblMax : ℝ := (2 ^ 53 - 1) * 2 ^ 971

/-- The parameter `t` at which the line from `p0` to `p1` meets the plane through `r0` with normal `n`:
BondFilter.cxx:65-80 (finite plane), 179-194 (disk), 240-255 (triangle), 322-337 (quad).  The four
copies differ only in the tolerance. -/
def param (tol : ℝ) (r0 n p0 p1 : V3) : ℝ :=
  let numerator := (r0 0 - p0 0) * n 0 + (r0 1 - p0 1) * n 1 + (r0 2 - p0 2) * n 2
  let denominator := (p1 0 - p0 0) * n 0 + (p1 1 - p0 1) * n 1 + (p1 2 - p0 2) * n 2
  if |denominator| < tol then dblMax else numerator / denominator

/-- The point at parameter `t`: BondFilter.cxx:88-90, 200-203, 261-264, 343-346. -/
def pointAt (p0 p1 : V3) (t : ℝ) : V3 :=
  ![p0 0 + t * (p1 0 - p0 0), p0 1 + t * (p1 1 - p0 1), p0 2 + t * (p1 2 - p0 2)]

/-! ### Rectangular plane -/

/-- `FinitePlane`, BondFilter.h:59-93. `a` is `lengthA`, `b` is `lengthBottom`. -/
structure FinitePlane where
  n : V3
  r0 : V3
  ub : V3
  a : ℝ
  b : ℝ

/-- `ua`, the second edge direction, BondFilter.cxx:59-61. -/
def FinitePlane.ua (P : FinitePlane) : V3 := cross P.ub P.n

/-- `FinitePlane::bondIntersect`, BondFilter.cxx:95-106, with the short-circuiting of `&&`. -/
def FinitePlane.bondIntersect (P : FinitePlane) (x : V3) (tolerance : ℝ) : Outcome Bool :=
  let zero := tolerance
  let one := 1 + zero
  let dr : V3 := x - P.r0
  let aa := dot dr P.ua
  let bb := dot dr P.ub
  if ¬ (-zero < aa) then .ok false
  else if P.a = 0 then .ub
  else if ¬ (aa / P.a < one) then .ok false
  else if ¬ (-zero < bb) then .ok false
  else if P.b = 0 then .ub
  else if ¬ (bb / P.b < one) then .ok false
  else .ok true

/-- The test of `FinitePlaneFilter::filterBonds`, BondFilter.cxx:149, with
`bondIntersectInfinitePlane` (63-93, tolerance 1e-14) and `bondIntersect` (tolerance 1e-15,
BondFilter.h:122). -/
def FinitePlane.cuts (P : FinitePlane) (p0 p1 : V3) : Outcome Bool :=
  let t := param 1e-14 P.r0 P.n p0 p1
  if t ≥ 0 ∧ t ≤ 1 then P.bondIntersect (pointAt p0 p1 t) 1e-15 else .ok false

/-! ### Disk -/

/-- `DiskFilter`, BondFilter.h:131-149. -/
structure Disk where
  center : V3
  normal : V3
  radius : ℝ

/-- `DiskFilter::bondIntersectsDisk`, BondFilter.cxx:177-214 (tolerance 1e-15, BondFilter.h:133). -/
def Disk.cuts (D : Disk) (p0 p1 : V3) : Outcome Bool :=
  let t := param 1e-15 D.center D.normal p0 p1
  if t < 0 ∨ t > 1 then .ok false
  else
    let x := pointAt p0 p1 t
    let distance_squared := (x 0 - D.center 0) * (x 0 - D.center 0) +
      (x 1 - D.center 1) * (x 1 - D.center 1) + (x 2 - D.center 2) * (x 2 - D.center 2)
    if distance_squared < D.radius * D.radius then .ok true else .ok false

/-! ### Triangle and quadrilateral -/

/-- The barycentric test of one triangle, BondFilter.cxx:279-286 and, twice, 366-381: `a` and `b` are
the edge vectors, `c` the point relative to the common corner. -/
def baryInside (tol : ℝ) (a b c : V3) : Outcome Bool :=
  let dot00 := a 0 * a 0 + a 1 * a 1 + a 2 * a 2
  let dot01 := a 0 * b 0 + a 1 * b 1 + a 2 * b 2
  let dot02 := a 0 * c 0 + a 1 * c 1 + a 2 * c 2
  let dot11 := b 0 * b 0 + b 1 * b 1 + b 2 * b 2
  let dot12 := b 0 * c 0 + b 1 * c 1 + b 2 * c 2
  let den := dot00 * dot11 - dot01 * dot01
  if den = 0 then .ub
  else
    let alpha := (dot11 * dot02 - dot01 * dot12) / den
    let beta := (dot00 * dot12 - dot01 * dot02) / den
    .ok (decide (alpha > -tol) && decide (beta > -tol) && decide (alpha + beta < 1 + 2 * tol))

/-- Division of the vector product by its length, BondFilter.h:166-172 and 203-209. -/
def unitNormal (a b : V3) : Outcome V3 :=
  let n := cross a b
  let mag := Real.sqrt (n 0 * n 0 + n 1 * n 1 + n 2 * n 2)
  if mag = 0 then .ub else .ok ![n 0 / mag, n 1 / mag, n 2 / mag]

/-- `TriangleFilter`, BondFilter.h:151-184. -/
structure Triangle where
  v1 : V3
  v2 : V3
  v3 : V3

/-- `TriangleFilter::bondIntersectsTriangle`, BondFilter.cxx:238-268, with `pointInTriangle` (270-288)
and the normal computed by the constructor (BondFilter.h:153-173). -/
def Triangle.cuts (T : Triangle) (p0 p1 : V3) : Outcome Bool :=
  match unitNormal (T.v2 - T.v1) (T.v3 - T.v1) with
  | .ok n =>
    let t := param 1e-14 T.v1 n p0 p1
    if t < 0 ∨ t > 1 then .ok false
    else baryInside 1e-14 (T.v3 - T.v1) (T.v2 - T.v1) (pointAt p0 p1 t - T.v1)
  | .fail f => .fail f
  | .ub => .ub

/-- `QuadFilter`, BondFilter.h:186-222. -/
structure Quad where
  v1 : V3
  v2 : V3
  v3 : V3
  v4 : V3

/-- `inTriangle1 || inTriangle2` where both sides have been evaluated, BondFilter.cxx:373-384. -/
def orBoth (u w : Outcome Bool) : Outcome Bool :=
  match u, w with
  | .ok u, .ok w => .ok (u || w)
  | .fail f, _ => .fail f
  | _, .fail f => .fail f
  | _, _ => .ub

/-- `QuadFilter::bondIntersectsQuad`, BondFilter.cxx:312-350, with `pointInQuad` (352-385) and the
normal computed by the constructor (BondFilter.h:188-210). -/
def Quad.cuts (Q : Quad) (p0 p1 : V3) : Outcome Bool :=
  match unitNormal (Q.v2 - Q.v1) (Q.v4 - Q.v1) with
  | .ok n =>
    let t := param 1e-14 Q.v1 n p0 p1
    if t < 0 ∨ t > 1 then .ok false
    else
      orBoth (baryInside 1e-14 (Q.v3 - Q.v1) (Q.v2 - Q.v1) (pointAt p0 p1 t - Q.v1))
        (baryInside 1e-14 (Q.v3 - Q.v1) (Q.v4 - Q.v1) (pointAt p0 p1 t - Q.v1))
  | .fail f => .fail f
  | .ub => .ub

/-! ### The filter loop -/

/-- The subclasses of `BondFilter`, BondFilter.h:95-222. -/
inductive Shape where
  | default
  | plane (P : FinitePlane)
  | disk (D : Disk)
  | triangle (T : Triangle)
  | quad (Q : Quad)

/-- Whether a bond between two different points is marked. -/
def Shape.cuts : Shape → V3 → V3 → Outcome Bool
  | .default, _, _ => .ok false
  | .plane P, p0, p1 => P.cuts p0 p1
  | .disk D, p0, p1 => D.cuts p0 p1
  | .triangle T, p0, p1 => T.cuts p0 p1
  | .quad Q, p0, p1 => Q.cuts p0 p1

/-- A filter object: its shape and `includeSelf`, BondFilter.h:97,106. -/
structure BondFilter where
  shape : Shape
  includeSelf : Bool

/-- The new value of one flag: BondFilter.cxx:115-118 (default), 140-151, 167-173, 228-234, 302-308.
A set flag is never cleared. -/
def BondFilter.mark (f : BondFilter) (pt : V3) (ptLocalId : Nat) (xOverlap : Nat → V3) (uid : Nat)
    (flag : Bool) : Outcome Bool :=
  if ptLocalId = uid ∧ f.includeSelf = false then .ok true
  else
    match f.shape.cuts pt (xOverlap uid) with
    | .ok true => .ok true
    | .ok false => .ok flag
    | .fail e => .fail e
    | .ub => .ub

/-- `filterBonds`: BondFilterDefault 108-121, FinitePlaneFilter 123-153, DiskFilter 155-175,
TriangleFilter 216-236, QuadFilter 290-310 of BondFilter.cxx. `bondFlags` has one entry per entry of
`treeList`. -/
def BondFilter.filterBonds (f : BondFilter) (pt : V3) (ptLocalId : Nat) (xOverlap : Nat → V3) :
    List Nat → List Bool → Outcome (List Bool)
  | uid :: tree, flag :: flags =>
    match f.mark pt ptLocalId xOverlap uid flag with
    | .ok b =>
      match f.filterBonds pt ptLocalId xOverlap tree flags with
      | .ok bs => .ok (b :: bs)
      | .fail e => .fail e
      | .ub => .ub
    | .fail e => .fail e
    | .ub => .ub
  | [], flags => .ok flags
  | _ :: _, [] => .ub

/-- The loop over the filters, NeighborhoodList.cxx:714-716. -/
def runFilters (fs : List BondFilter) (pt : V3) (ptLocalId : Nat) (xOverlap : Nat → V3)
    (tree : List Nat) (flags : List Bool) : Outcome (List Bool) :=
  match fs with
  | [] => .ok flags
  | f :: fs =>
    match f.filterBonds pt ptLocalId xOverlap tree flags with
    | .ok bs => runFilters fs pt ptLocalId xOverlap tree bs
    | .fail e => .fail e
    | .ub => .ub

end Verif.Filter
