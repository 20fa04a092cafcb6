import Verif.BC.Model
import Mathlib.Algebra.Order.Archimedean.Real.Basic

/-!
# Explicit time integration (model)

Models `Peridigm::executeExplicit`, src/core/Peridigm.cpp:1290-1593, on one processor.

The evaluation of the internal force and of the contact force, the copies between mothership
vectors and data managers, the assembly of the force vector and the shift of the state from NP1 to
N (lines 1453-1474, 1507-1567, 1580-1589) are one function `eval` of the state `σ` kept in the
blocks, the step number and the mothership vectors.  It may depend on them in any way, may fail,
and, as it is arbitrary, may stand for what other processors send.  Every other statement of the
loop acts entry by entry, so the model of one processor also describes the concatenation of the
vectors of all processors.  Output is not modelled.
-/

namespace Verif.Explicit

open Verif Verif.BC

/-- Parameters of the integrator.  `dt` is the step after the choice between the critical and the
fixed step and the multiplication by the safety factor (see `timeStep`).
Models src/core/Peridigm.cpp:1316-1321 and the density vector. -/
structure Params where
  dt : ℝ
  timeInitial : ℝ
  timeFinal : ℝ
  density : Nat → ℝ
  /-- `a->MyLength()` -/
  length : Nat

/-- The step size: the critical one unless a fixed one is given, times the safety factor if given.
Models src/core/Peridigm.cpp:1303-1315. -/
def timeStep (critical : ℝ) (fixed safety : Option ℝ) : ℝ :=
  match fixed, safety with
  | none, none => critical
  | some f, none => f
  | none, some k => critical * k
  | some f, some k => f * k

/-- Largest `int`. -/
def intMax : Int := 2147483647

open Classical in
/-- Number of steps.  Converting a `double` outside the range of `int` (line 1322, before the check
of lines 1325-1332) is undefined, and so is incrementing the loop counter beyond `INT_MAX`
(line 1447); a division by zero gives an infinity or a NaN, whose conversion is undefined too.
Models src/core/Peridigm.cpp:1322-1332, 1447. -/
noncomputable def numSteps (P : Params) : Outcome Nat :=
  if P.dt = 0 then .ub
  else if ⌊(P.timeFinal - P.timeInitial) / P.dt⌋ < -intMax - 1 then .ub
  else if intMax ≤ ⌊(P.timeFinal - P.timeInitial) / P.dt⌋ then .ub
  else .ok ⌊(P.timeFinal - P.timeInitial) / P.dt⌋.toNat

/-- State at the end of a pass of the loop: mothership vectors, acceleration, `timeCurrent`, and
what the blocks hold. -/
structure State (σ : Type) where
  vecs : Vecs
  a : Nat → ℝ
  time : ℝ
  blocks : σ

/-- Evaluation of the forces: step number, vectors; see the module comment. -/
abbrev Eval (σ : Type) := σ → Nat → Vecs → Outcome (σ × (Nat → ℝ))

/-- Replaces one mothership vector. -/
def setVec (s : Vecs) (t : Target) (f : Nat → ℝ) : Vecs := fun t' => if t' = t then f else s t'

/-- `AXPY`: `y + alpha * x`.
Models src/core/Peridigm.cpp:1480, 1501, 1577. -/
def axpy (alpha : ℝ) (x y : Nat → ℝ) : Nat → ℝ := fun i => y i + alpha * x i

open Classical in
/-- The acceleration from internal and external force; a zero density gives infinities that are not
checked for.
Models src/core/Peridigm.cpp:1419-1423, 1569-1573. -/
noncomputable def acceleration (P : Params) (force ext : Nat → ℝ) : Outcome (Nat → ℝ) :=
  if ∃ i < P.length, P.density (i / 3) = 0 then .ub
  else .ok fun i => (force i + ext i) / P.density (i / 3)

/-- Everything before the force evaluation of a step.
Models src/core/Peridigm.cpp:1476-1501. -/
noncomputable def predictor {σ : Type} (P : Params) (C : Ctx) (cs : Conditions) (s : State σ)
    (tc : ℝ) : Outcome Vecs := do
  let w2 ← applyBoundary C cs.boundary tc s.time
    (setVec s.vecs .v (axpy (P.dt / 2) s.a (s.vecs .v)))
  let w3 ← applyForces C cs.force tc s.time w2
  let w4 := setVec w3 .y fun i => C.x i + w3 .u i + P.dt * w3 .v i
  .ok (setVec w4 .u (axpy P.dt (w4 .v) (w4 .u)))

/-- One pass of the time loop.
Models src/core/Peridigm.cpp:1447-1590. -/
noncomputable def advance {σ : Type} (P : Params) (C : Ctx) (cs : Conditions) (eval : Eval σ)
    (s : State σ) (step : Nat) : Outcome (State σ) := do
  let w ← predictor P C cs s (P.timeInitial + step * P.dt)
  let r ← eval s.blocks step w
  let a ← acceleration P r.2 (w .externalForce)
  .ok { vecs := setVec w .v (axpy (P.dt / 2) a (w .v)), a := a,
        time := P.timeInitial + step * P.dt, blocks := r.1 }

/-- The first `n` passes of the loop.
Models src/core/Peridigm.cpp:1447-1590. -/
noncomputable def run {σ : Type} (P : Params) (C : Ctx) (cs : Conditions) (eval : Eval σ)
    (s : State σ) : Nat → Outcome (State σ)
  | 0 => .ok s
  | n + 1 => do
      let s' ← run P C cs eval s n
      advance P C cs eval s' (n + 1)

/-- The evaluation of the initial configuration (skipped when restart data were read).
Models src/core/Peridigm.cpp:1388-1424. -/
noncomputable def initialStep {σ : Type} (P : Params) (C : Ctx) (cs : Conditions) (eval : Eval σ)
    (vecs : Vecs) (blocks : σ) : Outcome (State σ) := do
  let r ← eval blocks 0 vecs
  let w1 ← applyBoundary C cs.boundary P.timeInitial P.timeInitial vecs
  let w2 ← applyForces C cs.force P.timeInitial P.timeInitial w1
  let a ← acceleration P r.2 (w2 .externalForce)
  .ok { vecs := w2, a := a, time := P.timeInitial, blocks := r.1 }

/-- `executeExplicit`, beginning with the given vectors and block data.
Models src/core/Peridigm.cpp:1290-1593. -/
noncomputable def executeExplicit {σ : Type} (P : Params) (C : Ctx) (cs : Conditions)
    (eval : Eval σ) (vecs : Vecs) (blocks : σ) : Outcome (State σ) := do
  let n ← numSteps P
  let s ← initialStep P C cs eval vecs blocks
  run P C cs eval s n

end Verif.Explicit
