import Verif.Mech.Model

/-!
# Model of the short-range contact force

Models `ShortRangeForceContactModel::computeForce`,
/repo/src/contact/Peridigm_ShortRangeForceContactModel.cpp:97-261.

Numbers are exact reals; a division by zero is `ub`.  Arrays of point data are functions from local ids.
The entries of the contact list are integers, because an id that is not in the overlap map is stored as -1.
-/

noncomputable section

namespace Verif.Contact

open Verif Verif.Mech Verif.Neigh
open scoped Classical

/-- The parameters, Peridigm_ShortRangeForceContactModel.cpp:67-76. -/
structure Params where
  radius : ℝ
  springConstant : ℝ
  friction : ℝ
  horizon : ℝ

/-- The fields the model reads, Peridigm_ShortRangeForceContactModel.cpp:107-111. -/
structure Fields where
  y : Nat → V3
  v : Nat → V3
  vol : Nat → ℝ

/-- `distanceSquared`, Peridigm_ShortRangeForceContactModel.hpp:91-95. -/
def distanceSquared (a b : V3) : ℝ :=
  (a 0 - b 0) * (a 0 - b 0) + (a 1 - b 1) * (a 1 - b 1) + (a 2 - b 2) * (a 2 - b 2)

/-- `distance`, Peridigm_ShortRangeForceContactModel.hpp:84-89. -/
def distance (a b : V3) : ℝ := Real.sqrt (distanceSquared a b)

/-- `temp`, Peridigm_ShortRangeForceContactModel.cpp:142-143. -/
def spring (P : Params) (dist : ℝ) : Outcome ℝ :=
  if Real.pi * P.horizon * P.horizon * P.horizon * P.horizon = 0 then .ub
  else if P.horizon = 0 then .ub
  else .ok (9 * P.springConstant / (Real.pi * P.horizon * P.horizon * P.horizon * P.horizon) *
    (P.radius - dist) / P.horizon)

/-- The part of the velocity `v` perpendicular to `normal`,
Peridigm_ShortRangeForceContactModel.cpp:154-168. -/
def perp (normal v : V3) : V3 :=
  fun c => v c - (v 0 * normal 0 + v 1 * normal 1 + v 2 * normal 2) * normal c

/-- The friction force on a point, Peridigm_ShortRangeForceContactModel.cpp:214-223 (the same for the
neighbor, 225-234). -/
def frictionForce (mu : ℝ) (normalForce vrel : V3) : V3 :=
  if len vrel ≠ 0 then fun c => -mu * len normalForce * vrel c / len vrel else fun _ => 0

/-- The two contributions of a pair within the contact radius,
Peridigm_ShortRangeForceContactModel.cpp:140-255: to the point and to the neighbor. -/
def pairForces (P : Params) (F : Fields) (i j : Nat) : Outcome (V3 × V3) :=
  match spring P (distance (F.y i) (F.y j)) with
  | .ok temp =>
    if distance (F.y i) (F.y j) = 0 then .ub
    else
      let dist := distance (F.y i) (F.y j)
      let ni : V3 := fun c => -(temp * F.vol j * (F.y j c - F.y i c) / dist)
      let nj : V3 := fun c => temp * F.vol i * (F.y j c - F.y i c) / dist
      if P.friction ≠ 0 then
        let normal : V3 := fun c => (F.y j c - F.y i c) / dist
        let pi := perp normal (F.v i)
        let pj := perp normal (F.v j)
        let vcm : V3 := fun c => 1 / 2 * (pi c + pj c)
        let ri : V3 := fun c => pi c - vcm c
        let rj : V3 := fun c => pj c - vcm c
        .ok (fun c => ni c + frictionForce P.friction ni ri c, fun c => nj c + frictionForce P.friction nj rj c)
      else .ok (ni, nj)
  | .fail e => .fail e
  | .ub => .ub

/-- Adding to the entries of the point and then of the neighbor,
Peridigm_ShortRangeForceContactModel.cpp:238-243. -/
def addPair (f : Nat → V3) (i j : Nat) (g : V3 × V3) : Nat → V3 :=
  let f1 := Function.update f i (fun c => f i c + g.1 c)
  Function.update f1 j (fun c => f1 j c + g.2 c)

/-- One pair, Peridigm_ShortRangeForceContactModel.cpp:137-257. -/
def contactPair (P : Params) (F : Fields) (i j : Nat) (f : Nat → V3) : Outcome (Nat → V3) :=
  if distanceSquared (F.y i) (F.y j) < P.radius * P.radius then
    match pairForces P F i j with
    | .ok g => .ok (addPair f i j g)
    | .fail e => .fail e
    | .ub => .ub
  else .ok f

/-- The loop over the `k` entries from position `pos` on,
Peridigm_ShortRangeForceContactModel.cpp:134-258. -/
def neighborLoop (P : Params) (F : Fields) (i : Nat) (l : List Int) :
    Nat → Nat → (Nat → V3) → Outcome (Nat → V3)
  | 0, _, f => .ok f
  | k + 1, pos, f =>
    match readAt l pos with
    | .ok n =>
      if n < 0 then .fail .terminate
      else
        match contactPair P F i n.toNat f with
        | .ok f' => neighborLoop P F i l k (pos + 1) f'
        | .fail e => .fail e
        | .ub => .ub
    | .fail e => .fail e
    | .ub => .ub

/-- The loop over the owned points, Peridigm_ShortRangeForceContactModel.cpp:123-260. A count that is not
positive is skipped together with nothing else. -/
def ownedLoop (P : Params) (F : Fields) (l : List Int) :
    List Nat → Nat → (Nat → V3) → Outcome (Nat → V3)
  | [], _, f => .ok f
  | i :: ids, pos, f =>
    match readAt l pos with
    | .ok n =>
      match neighborLoop P F i l n.toNat (pos + 1) f with
      | .ok f' => ownedLoop P F l ids (pos + 1 + n.toNat) f'
      | .fail e => .fail e
      | .ub => .ub
    | .fail e => .fail e
    | .ub => .ub

/-- `ShortRangeForceContactModel::computeForce`, Peridigm_ShortRangeForceContactModel.cpp:97-261. -/
def computeForce (P : Params) (F : Fields) (ownedIDs : List Nat) (l : List Int) : Outcome (Nat → V3) :=
  ownedLoop P F l ownedIDs 0 fun _ => 0

end Verif.Contact
