import Verif.Contact.Model
import Verif.Mech.Spec

/-! Specification vocabulary for C29. -/

noncomputable section

namespace Verif.Contact

open Verif Verif.Mech Verif.Neigh
open scoped Classical

/-- The contact list that gives the neighbors `nbs` to the owned points. -/
def listOf (nbs : List (List Nat)) : List Int :=
  nbs.flatMap fun ns => ((ns.length : Nat) : Int) :: ns.map fun (n : Nat) => (n : Int)

/-- The pairs (point, neighbor) the list describes. -/
def pairs (ids : List Nat) (nbs : List (List Nat)) : List (Nat × Nat) :=
  (ids.zip nbs).flatMap fun (i, ns) => ns.map fun j => (i, j)

/-- The unit vector in the direction of `d`, zero for `d = 0`. -/
def unit (d : V3) : V3 := (len d)⁻¹ • d

/-- The part of `w` perpendicular to the unit vector `n`. -/
def tangential (n w : V3) : V3 := w - (n ⬝ᵥ w) • n

/-- The strength of the repulsion of two points at distance `d`: it falls linearly from the
centre to the contact radius and vanishes from there on. -/
def strength (P : Params) (d : ℝ) : ℝ :=
  if d < P.radius then 9 * P.springConstant * (P.radius - d) / (Real.pi * P.horizon ^ 5) else 0

/-- The contact law: force per volume of both points that `j` exerts on `i`.  A repulsion along the line of the
two points, and a friction force of `mu` times its size against the tangential part of the relative velocity. -/
def law (P : Params) (F : Fields) (i j : Nat) : V3 :=
  (-1 : ℝ) • (strength P (len (F.y j - F.y i)) • unit (F.y j - F.y i) +
    (P.friction * abs (strength P (len (F.y j - F.y i)))) •
      unit (tangential (unit (F.y j - F.y i)) (F.v i - F.v j)))

end Verif.Contact
