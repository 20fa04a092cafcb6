import Verif.QuasiStatic.Model
import Mathlib.Algebra.Order.Archimedean.Real.Basic

/-!
# Implicit dynamics (model)

Models `Peridigm::executeImplicit`, src/core/Peridigm.cpp:3620-4016, for a purely mechanical
analysis (the branches on `analysisHasMultiphysics` are not modelled).

The evaluation of the internal force and the solution of the linear system are arbitrary functions;
the solution is used also if the linear solver did not converge.  The vectors are those of one
processor or the concatenation of those of all processors.  Output is not modelled.
-/

namespace Verif.Implicit

open Verif Verif.BC Verif.Explicit Verif.QuasiStatic

/-- Parameters.
Models src/core/Peridigm.cpp:3641-3649 and the density vector. -/
structure Params where
  timeInitial : ℝ
  timeFinal : ℝ
  dt : ℝ
  beta : ℝ
  gamma : ℝ
  absoluteTolerance : ℝ
  maxSolverIterations : Int
  density : Nat → ℝ

/-- The functions that are left open: internal force density, from the state of the blocks, the
scratch data and the vectors including the acceleration; and the solution of the linear system for
a given right hand side.
Models src/core/Peridigm.cpp:3766-3814, 3914-3958 (`force`), 3864-3887 (`direction`). -/
structure Solver (σ ω : Type) where
  force : σ → ω → Vecs → (Nat → ℝ) → Outcome (ω × (Nat → ℝ))
  direction : σ → ω → Vecs → (Nat → ℝ) → (Nat → ℝ) → Outcome (ω × (Nat → ℝ))
  /-- exchange of state N and state NP1.
  Models src/core/Peridigm.cpp:4012-4014. -/
  shift : σ → ω → σ × ω

open Classical in
/-- Number of steps; conversion of numbers outside the range of `int` is undefined.
Models src/core/Peridigm.cpp:3652. -/
noncomputable def numSteps (P : Params) : Outcome Nat :=
  if P.dt = 0 then .ub
  else if ⌊(P.timeFinal - P.timeInitial) / P.dt⌋ < -intMax - 1 then .ub
  else if intMax < ⌊(P.timeFinal - P.timeInitial) / P.dt⌋ then .ub
  else .ok ⌊(P.timeFinal - P.timeInitial) / P.dt⌋.toNat

/-- The known part of the new displacement.
Models src/core/Peridigm.cpp:3727-3729. -/
noncomputable def knownU (P : Params) (w : Vecs) (a : Nat → ℝ) : Nat → ℝ :=
  fun i => w .u i + P.dt * w .v i + 0.5 * (P.dt * P.dt) * (1.0 - 2.0 * P.beta) * a i

/-- The known part of the new velocity.
Models src/core/Peridigm.cpp:3730-3731. -/
noncomputable def knownV (P : Params) (w : Vecs) (a : Nat → ℝ) : Nat → ℝ :=
  fun i => w .v i + P.dt * (1.0 - P.gamma) * a i

/-- A trial state: vectors and acceleration. -/
structure Trial where
  vecs : Vecs
  a : Nat → ℝ

open Classical in
/-- Acceleration, velocity and position that go with a displacement; if `beta*dt2` is zero the
acceleration is not finite.
Models src/core/Peridigm.cpp:3751-3759, 3900-3912. -/
noncomputable def place (P : Params) (E : Env) (u2 v2 : Nat → ℝ) (w : Vecs) (u : Nat → ℝ) :
    Outcome Trial :=
  if P.beta * (P.dt * P.dt) = 0 then .ub
  else
    .ok { vecs := setVec (setVec (setVec w .u u) .v
                    fun i => v2 i + P.dt * P.gamma * ((u i - u2 i) * (1.0 / (P.beta * (P.dt * P.dt)))))
                    .y fun i => E.C.x i + u i,
          a := fun i => (u i - u2 i) * (1.0 / (P.beta * (P.dt * P.dt))) }

/-- State of the nonlinear iteration; `force` is the internal force density last evaluated. -/
structure Iter (ω : Type) where
  trial : Trial
  work : ω
  force : Nat → ℝ
  residual : Nat → ℝ
  norm : ℝ

/-- Force, body force, residual and its norm at a trial state.
Models src/core/Peridigm.cpp:3784-3853, 3932-3995. -/
noncomputable def evaluate {σ ω : Type} (P : Params) (E : Env) (S : Solver σ ω) (N : σ) (work : ω)
    (tc tp : ℝ) (t : Trial) : Outcome (Iter ω) := do
  let p ← S.force N work t.vecs t.a
  let w ← applyForces E.C E.cs.force tc tp t.vecs
  let r ← zeroed E fun i => P.beta * (P.dt * P.dt) *
    (P.density (i / 3) * t.a i - p.2 i - w .externalForce i)
  .ok { trial := { t with vecs := w }, work := p.1, force := p.2, residual := r,
        norm := norm2 E.length r }

open Classical in
/-- The nonlinear iteration, `fuel` iterations before the counter exceeds its maximum.
Models src/core/Peridigm.cpp:3855-3998. -/
noncomputable def iterate {σ ω : Type} (P : Params) (E : Env) (S : Solver σ ω) (N : σ)
    (u2 v2 : Nat → ℝ) (tc tp : ℝ) : Nat → Iter ω → Outcome (Iter ω)
  | 0, t => .ok t
  | fuel + 1, t =>
      if P.absoluteTolerance < t.norm then do
        let d ← S.direction N t.work t.trial.vecs t.trial.a fun i => -1.0 * t.residual i
        let t1 ← place P E u2 v2 t.trial.vecs fun i => t.trial.vecs .u i + d.2 i
        let t2 ← evaluate P E S N d.1 tc tp t1
        iterate P E S N u2 v2 tc tp fuel t2
      else .ok t

/-- State between steps. -/
structure State (σ ω : Type) where
  vecs : Vecs
  a : Nat → ℝ
  time : ℝ
  timePrevious : ℝ
  N : σ
  work : ω

/-- The nonlinear problem of one step.
Models src/core/Peridigm.cpp:3718-3998. -/
noncomputable def solve {σ ω : Type} (P : Params) (E : Env) (S : Solver σ ω) (s : State σ ω) :
    Outcome (Iter ω) := do
  let t1 ← place P E (knownU P s.vecs s.a) (knownV P s.vecs s.a) s.vecs (knownU P s.vecs s.a)
  let t2 ← evaluate P E S s.N s.work s.time s.timePrevious t1
  iterate P E S s.N (knownU P s.vecs s.a) (knownV P s.vecs s.a) s.time s.timePrevious
    (P.maxSolverIterations + 1).toNat t2

/-- The end of a step.
Models src/core/Peridigm.cpp:4003-4014. -/
noncomputable def finish {σ ω : Type} (P : Params) (S : Solver σ ω) (s : State σ ω) (step : Nat)
    (t : Iter ω) : State σ ω :=
  { vecs := t.trial.vecs, a := t.trial.a, time := P.timeInitial + (step + 1 : ℕ) * P.dt,
    timePrevious := s.time, N := (S.shift s.N t.work).1, work := (S.shift s.N t.work).2 }

/-- One pass of the loop.
Models src/core/Peridigm.cpp:3713-4015. -/
noncomputable def advance {σ ω : Type} (P : Params) (E : Env) (S : Solver σ ω) (s : State σ ω)
    (step : Nat) : Outcome (State σ ω) := do
  let t ← solve P E S s
  .ok (finish P S s step t)

/-- The first `n` passes of the loop.
Models src/core/Peridigm.cpp:3713-4015. -/
noncomputable def run {σ ω : Type} (P : Params) (E : Env) (S : Solver σ ω) (s : State σ ω) :
    Nat → Outcome (State σ ω)
  | 0 => .ok s
  | n + 1 => do
      let s' ← run P E S s n
      advance P E S s' n

/-- The state before the first step.
Models src/core/Peridigm.cpp:3641-3644, 3699-3705. -/
noncomputable def start {σ ω : Type} (P : Params) (E : Env) (vecs : Vecs) (a : Nat → ℝ) (N : σ)
    (work : ω) : Outcome (State σ ω) := do
  let w1 ← applyBoundary E.C E.cs.boundary P.timeInitial P.timeInitial vecs
  let w2 ← applyForces E.C E.cs.force P.timeInitial P.timeInitial w1
  .ok { vecs := w2, a := a, time := P.timeInitial, timePrevious := P.timeInitial, N := N, work := work }

/-- `executeImplicit`.
Models src/core/Peridigm.cpp:3620-4016. -/
noncomputable def executeImplicit {σ ω : Type} (P : Params) (E : Env) (S : Solver σ ω) (vecs : Vecs)
    (a : Nat → ℝ) (N : σ) (work : ω) : Outcome (State σ ω) := do
  let n ← numSteps P
  let s ← start P E vecs a N work
  run P E S s n

end Verif.Implicit
