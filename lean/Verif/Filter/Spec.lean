import Verif.Filter.Model

/-! Specification vocabulary for C16. -/

noncomputable section

namespace Verif.Filter

open Verif Verif.Mech

/-- The segment from `p` to `q` has a point in common with the set `S`. -/
def Meets (p q : V3) (S : Set V3) : Prop := ∃ s : ℝ, 0 ≤ s ∧ s ≤ 1 ∧ p + s • (q - p) ∈ S

/-- The segment from `p` to `q` is, up to the tolerance `tol`, not parallel to planes with normal `n`. -/
def Crosses (tol : ℝ) (n p q : V3) : Prop := tol ≤ |dotProduct (q - p) n|

/-- The rectangle with corner `r0`, orthonormal edge directions `ua`, `ub` and edge lengths `a`, `b`,
enlarged by the tolerance `tol`. -/
def rectangle (tol : ℝ) (r0 ua ub : V3) (a b : ℝ) : Set V3 :=
  {X | ∃ s t : ℝ, X = r0 + s • ua + t • ub ∧ -tol < s ∧ s < a * (1 + tol) ∧ -tol < t ∧ t < b * (1 + tol)}

/-- The open disk: points of the plane closer to the center than the radius. -/
def disk (c n : V3) (r : ℝ) : Set V3 := {X | dotProduct (X - c) n = 0 ∧ len (X - c) < r}

/-- The triangle with corners `u`, `v`, `w`, enlarged by the tolerance. -/
def triangle (tol : ℝ) (u v w : V3) : Set V3 :=
  {X | ∃ s t : ℝ, X = u + s • (w - u) + t • (v - u) ∧ -tol < s ∧ -tol < t ∧ s + t < 1 + 2 * tol}

/-- Filters whose shape has an extent: non-zero edge lengths, triangles that are not degenerate. -/
def NonDegenerate : Shape → Prop
  | .default => True
  | .plane P => P.a ≠ 0 ∧ P.b ≠ 0
  | .disk _ => True
  | .triangle T => crossProduct (T.v2 - T.v1) (T.v3 - T.v1) ≠ 0
  | .quad Q => crossProduct (Q.v2 - Q.v1) (Q.v4 - Q.v1) ≠ 0 ∧ crossProduct (Q.v3 - Q.v1) (Q.v2 - Q.v1) ≠ 0 ∧
      crossProduct (Q.v3 - Q.v1) (Q.v4 - Q.v1) ≠ 0

end Verif.Filter
