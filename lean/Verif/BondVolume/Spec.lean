import Verif.BondVolume.Model

/-! # Volumes of bonds (specification) -/

noncomputable section

namespace Verif.BondVolume

open Verif Verif.Mech

/-- The middle of the `i`-th of 16 equal parts of a segment of length `D`, seen from the middle of the segment. -/
def offset (D : ℝ) (i : Nat) : ℝ := ((i + 1 / 2) / 16 - 1 / 2) * D

/-- The numbers of three parts, one along each direction. -/
def triples : Finset (Nat × Nat × Nat) := Finset.range 16 ×ˢ Finset.range 16 ×ˢ Finset.range 16

/-- The middle of a part of the cell of a box about `Q` with the given sides. -/
def boxPart (DX DY DZ : ℝ) (Q : V3) (a : Nat × Nat × Nat) : V3 :=
  ![Q 0 + offset DX a.1, Q 1 + offset DY a.2.1, Q 2 + offset DZ a.2.2]

/-- The cell of a box about `Q`. -/
def boxCell (DX DY DZ : ℝ) (Q : V3) : Set V3 :=
  {q | |q 0 - Q 0| ≤ DX / 2 ∧ |q 1 - Q 1| ≤ DY / 2 ∧ |q 2 - Q 2| ≤ DZ / 2}

/-- The point with cylindrical coordinates `r`, `theta`, `z` about the vertical line through `c`. -/
def polar (c : V3) (r theta z : ℝ) : V3 := ![c 0 + r * Real.cos theta, c 1 + r * Real.sin theta, z]

/-- The cell of a ring about the vertical line through `c`: the points whose cylindrical coordinates differ from `r`, `theta`, `z`
by no more than half the sizes. -/
def ringCell (DR Dtheta DZ : ℝ) (c : V3) (r theta z : ℝ) : Set V3 :=
  {q | ∃ r' t' z', |r' - r| ≤ DR / 2 ∧ |t' - theta| ≤ Dtheta / 2 ∧ |z' - z| ≤ DZ / 2 ∧ q = polar c r' t' z'}

/-- Distance of two points. -/
def away (p q : V3) : ℝ := Real.sqrt ((q 0 - p 0) ^ 2 + (q 1 - p 1) ^ 2 + (q 2 - p 2) ^ 2)

/-- Rotation by the angle `phi` about the z axis. -/
def turn (phi : ℝ) (p : V3) : V3 :=
  ![Real.cos phi * p 0 - Real.sin phi * p 1, Real.sin phi * p 0 + Real.cos phi * p 1, p 2]

/-- Weighted volume: the sum over bonds of influence, squared length and volume. -/
def weight (w : ℝ → ℝ) (X : V3) (x : Nat → V3) (bs : List (Nat × ℝ)) : ℝ :=
  (bs.map fun b => w (away X (x b.1)) * away X (x b.1) ^ 2 * b.2).sum

end Verif.BondVolume
