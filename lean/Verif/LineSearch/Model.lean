import Verif.Common.Outcome
import Mathlib.Data.Real.Basic
import Mathlib.Algebra.BigOperators.Group.Finset.Basic

/-!
# Line search of the quasi-static solver (model)

Models `Peridigm::quasiStaticsLineSearch`, src/core/Peridigm.cpp:3364-3618, for purely mechanical
and for multiphysics analyses.

`computeQuasiStaticResidual` is an arbitrary function of the vectors the search changes; it returns
the residual and its norm, or `none` if the norm is not finite.  (A residual with entries that are
not finite then gives no systematic guess; this simplifies the case of a norm that overflows for
finite entries.)  Arithmetic is exact.
-/

namespace Verif.LineSearch

open Verif

/-- Residual vector and norm; `none` if not finite. -/
abbrev Evaluation := Option ((Nat → ℝ) × ℝ)

/-- What the search works with: `move` adds a multiple of the search direction to the increment and
updates the vectors that depend on it, `moveFirst` is what the first loop does instead, `restore`
puts back the increment saved at the beginning. -/
structure Kind (T : Type) where
  move : T → ℝ → Outcome T
  moveFirst : T → ℝ → Outcome T
  restore : T → T → T
  eval : T → Outcome Evaluation
  lhs : Nat → ℝ
  length : Nat

/-- Variables of the loops over candidates. -/
structure Search (T : Type) where
  vecs : T
  bestAlpha : ℝ
  bestResidual : ℝ
  /-- `residualData` -/
  increases : List (ℝ × ℝ)

/-- `epsilon`.
Models src/core/Peridigm.cpp:3408. -/
noncomputable def epsilon : ℝ := 1 / 10 ^ 4

/-- `lhs->Dot`.
Models src/core/Peridigm.cpp:3443-3444. -/
noncomputable def dot (n : Nat) (a b : Nat → ℝ) : ℝ := ∑ i ∈ Finset.range n, a i * b i

open Classical in
/-- The systematic guess, none if it is out of range, not a number or infinite.
Models src/core/Peridigm.cpp:3443-3447. -/
noncomputable def guess (n : Nat) (lhs residual : Nat → ℝ) : Evaluation → List ℝ
  | none => []
  | some p =>
      if dot n lhs p.1 - dot n lhs residual = 0 then []
      else if -0.1 < -1.0 * epsilon * dot n lhs residual / (dot n lhs p.1 - dot n lhs residual) ∧
          -1.0 * epsilon * dot n lhs residual / (dot n lhs p.1 - dot n lhs residual) < 10.0 then
        [-1.0 * epsilon * dot n lhs residual / (dot n lhs p.1 - dot n lhs residual)]
      else []

/-- The first candidates apart from the systematic guess.
Models src/core/Peridigm.cpp:3457-3462. -/
noncomputable def firstCandidates : List ℝ := [0.1, 0.2, 0.3, 0.5, 0.75, 1.0]

/-- The second list of candidates.
Models src/core/Peridigm.cpp:3520-3532. -/
noncomputable def bruteForce : List ℝ :=
  (List.range 25).map (fun i : Nat => 0.002 * ((i : ℝ) + 1)) ++
  (List.range 15).map (fun i : Nat => 0.01 * ((i : ℝ) + 1) + 0.05) ++
  (List.range 6).map (fun i : Nat => 0.05 * ((i : ℝ) + 1) + 0.2) ++ [0.75, 1.0, 1.5, 2.0, 5.0, 10.0]

open Classical in
/-- The better of the best so far and the candidate.
Models src/core/Peridigm.cpp:3506-3509. -/
noncomputable def keepBest {T : Type} (s : Search T) (alpha : ℝ) : Evaluation → Search T
  | none => s
  | some p => if p.2 < s.bestResidual then { s with bestAlpha := alpha, bestResidual := p.2 } else s

/-- One pass of the first loop.
Models src/core/Peridigm.cpp:3465-3510. -/
noncomputable def tryFirst {T : Type} (K : Kind T) (saved : T) (s : Search T) (alpha : ℝ) :
    Outcome (Search T) := do
  let w ← K.moveFirst s.vecs alpha
  let r ← K.eval w
  .ok (keepBest { s with vecs := K.restore saved w } alpha r)

open Classical in
/-- The better of the two, and a record of candidates that increase the residual.
Models src/core/Peridigm.cpp:3581-3590. -/
noncomputable def keepBestOrIncrease {T : Type} (unperturbed : ℝ) (s : Search T) (alpha : ℝ) :
    Evaluation → Search T
  | none => s
  | some p =>
      if p.2 < s.bestResidual then { s with bestAlpha := alpha, bestResidual := p.2 }
      else if unperturbed < p.2 then
        { s with increases := s.increases ++ [(alpha, (p.2 - unperturbed) / unperturbed)] }
      else s

/-- One pass of the second loop.
Models src/core/Peridigm.cpp:3541-3591. -/
noncomputable def trySecond {T : Type} (K : Kind T) (saved : T) (unperturbed : ℝ) (s : Search T)
    (alpha : ℝ) : Outcome (Search T) := do
  let w ← K.move s.vecs alpha
  let r ← K.eval w
  .ok (keepBestOrIncrease unperturbed { s with vecs := K.restore saved w } alpha r)

open Classical in
/-- The recorded candidate whose increase is closest to ten percent; first component the candidate,
second the distance.
Models src/core/Peridigm.cpp:3600-3613. -/
noncomputable def closest (l : List (ℝ × ℝ)) (alpha : ℝ) : ℝ × ℝ :=
  l.foldl (fun b p => if |p.2 - 0.1| < b.2 then (p.1, |p.2 - 0.1|) else b) (alpha, 10 ^ 50)

open Classical in
/-- The end of the search after the second loop.
Models src/core/Peridigm.cpp:3594-3617. -/
noncomputable def conclude {T : Type} (unperturbed : ℝ) (s : Search T) : T × ℝ :=
  if 0.0001 < (unperturbed - s.bestResidual) / unperturbed then (s.vecs, s.bestAlpha)
  else (s.vecs, (closest s.increases s.bestAlpha).1)

open Classical in
/-- The search after the unperturbed residual turned out not to be zero.
Models src/core/Peridigm.cpp:3402-3617. -/
noncomputable def searchFrom {T : Type} (K : Kind T) (saved : T) (r0 : Nat → ℝ) (unperturbed : ℝ) :
    Outcome (T × ℝ) := do
  let w ← K.move saved epsilon
  let p ← K.eval w
  let s1 ← (guess K.length K.lhs r0 p ++ firstCandidates).foldlM (tryFirst K saved)
    { vecs := K.restore saved w, bestAlpha := 1, bestResidual := 10 ^ 50, increases := [] }
  if 0.02 < (unperturbed - s1.bestResidual) / unperturbed then .ok (s1.vecs, s1.bestAlpha)
  else do
    let s2 ← bruteForce.foldlM (trySecond K saved unperturbed) s1
    .ok (conclude unperturbed s2)

open Classical in
/-- `quasiStaticsLineSearch`; a residual that is not finite ends the program.
Models src/core/Peridigm.cpp:3364-3618. -/
noncomputable def lineSearch {T : Type} (K : Kind T) (w : T) : Outcome (T × ℝ) := do
  let r ← K.eval w
  match r with
  | none => .fail .terminate
  | some p => if p.2 = 0 then .ok (w, 0) else searchFrom K w p.1 p.2

/-! ## Mechanical analyses -/

/-- The vectors the search changes. -/
structure Mech where
  deltaU : Nat → ℝ
  y : Nat → ℝ
  v : Nat → ℝ

/-- The vectors it does not change, and the length of the step. -/
structure MechEnv where
  x : Nat → ℝ
  u : Nat → ℝ
  lhs : Nat → ℝ
  dt : ℝ
  length : Nat
  eval : Mech → Outcome Evaluation

open Classical in
/-- A trial configuration; a step of length zero gives velocities that are not finite.
Models src/core/Peridigm.cpp:3433-3437, 3492-3496, 3567-3571. -/
noncomputable def moveMech (E : MechEnv) (w : Mech) (alpha : ℝ) : Outcome Mech :=
  if E.dt = 0 then .ub
  else .ok
    { deltaU := fun i => w.deltaU i + alpha * E.lhs i,
      y := fun i => E.x i + E.u i + (w.deltaU i + alpha * E.lhs i),
      v := fun i => (w.deltaU i + alpha * E.lhs i) / E.dt }

/-- The search in a mechanical analysis.
Models src/core/Peridigm.cpp:3372, 3432-3438, 3453, 3491-3497, 3504, 3566-3572, 3579. -/
noncomputable def mechKind (E : MechEnv) : Kind Mech where
  move := moveMech E
  moveFirst := moveMech E
  restore := fun saved w => { w with deltaU := saved.deltaU }
  eval := E.eval
  lhs := E.lhs
  length := E.length

/-! ## Multiphysics analyses -/

/-- The vectors the search changes: all unknowns, displacements, pressures. -/
structure Multi where
  all : Mech
  mech : Mech
  fluid : Mech

/-- The vectors it does not change; `extra` is `numMultiphysDoFs`. -/
structure MultiEnv where
  x : Nat → ℝ
  unknownsU : Nat → ℝ
  lhs : Nat → ℝ
  dt : ℝ
  length : Nat
  extra : Nat
  eval : Multi → Outcome Evaluation

/-- The increment of the unknowns; unknowns after the fourth of a node are not changed.
Models src/core/Peridigm.cpp:3412, 3416, 3471, 3475, 3546, 3550. -/
noncomputable def nextDelta (E : MultiEnv) (d : Nat → ℝ) (alpha : ℝ) (k : Nat) : ℝ :=
  if k % (3 + E.extra) ≤ 3 then d k + alpha * E.lhs k else d k

/-- The unknowns in the trial configuration.
Models src/core/Peridigm.cpp:3410-3419, 3469-3478, 3544-3553. -/
noncomputable def moveAll (E : MultiEnv) (w : Mech) (alpha : ℝ) : Mech where
  deltaU := nextDelta E w.deltaU alpha
  y := fun k =>
    if k % (3 + E.extra) < 3 then
      E.x (k / (3 + E.extra) * 3 + k % (3 + E.extra)) + E.unknownsU k + nextDelta E w.deltaU alpha k
    else if k % (3 + E.extra) = 3 then E.unknownsU k + nextDelta E w.deltaU alpha k
    else w.y k
  v := fun k =>
    if k % (3 + E.extra) ≤ 3 then nextDelta E w.deltaU alpha k / E.dt else w.v k

/-- Displacements out of the unknowns.
Models src/core/Peridigm.cpp:3422-3426, 3481-3485, 3556-3560. -/
def mechPart (E : MultiEnv) (a : Mech) : Mech where
  deltaU := fun i => a.deltaU (i / 3 * (3 + E.extra) + i % 3)
  y := fun i => a.y (i / 3 * (3 + E.extra) + i % 3)
  v := fun i => a.v (i / 3 * (3 + E.extra) + i % 3)

/-- Pressures out of the unknowns.
Models src/core/Peridigm.cpp:3427-3429, 3486-3488, 3561-3563. -/
def fluidPart (E : MultiEnv) (a : Mech) : Mech where
  deltaU := fun i => a.deltaU (i * (3 + E.extra) + 3)
  y := fun i => a.y (i * (3 + E.extra) + 3)
  v := fun i => a.v (i * (3 + E.extra) + 3)

open Classical in
/-- A trial configuration.
Models src/core/Peridigm.cpp:3410-3430, 3544-3564. -/
noncomputable def moveMulti (E : MultiEnv) (w : Multi) (alpha : ℝ) : Outcome Multi :=
  if E.dt = 0 then .ub
  else .ok
    { all := moveAll E w.all alpha,
      mech := mechPart E (moveAll E w.all alpha),
      fluid := fluidPart E (moveAll E w.all alpha) }

/-- The search in a multiphysics analysis: the first loop uses `epsilon` in place of the candidate.
Models src/core/Peridigm.cpp:3370, 3409-3431, 3450, 3468-3490, 3501, 3543-3565, 3576. -/
noncomputable def multiKind (E : MultiEnv) : Kind Multi where
  move := moveMulti E
  moveFirst := fun w _ => moveMulti E w epsilon
  restore := fun saved w => { w with all := { w.all with deltaU := saved.all.deltaU } }
  eval := E.eval
  lhs := E.lhs
  length := E.length

end Verif.LineSearch
