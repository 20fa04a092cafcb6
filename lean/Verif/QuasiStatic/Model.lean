import Verif.BC.Model
import Verif.Explicit.Model
import Mathlib.Analysis.Real.Sqrt
import Mathlib.Algebra.BigOperators.Group.Finset.Basic

/-!
# Quasi-static load stepping (model)

Models `Peridigm::executeQuasiStatic`, src/core/Peridigm.cpp:2470-3043, for a purely mechanical
analysis (the branches on `analysisHasMultiphysics` are not modelled).

* The vectors are those of one processor or the concatenation of the vectors of all processors; the
  statements of the loop act entry by entry and the norms are global.
* The evaluation of the internal force (`computeQuasiStaticResidual` up to the force vector), the
  tangent with its damping, preconditioner and linear solver, and the line search are arbitrary
  functions, collected in `Solver`.  They read the data of the old state `σ` (state N of the
  blocks) and read and write everything else they keep in `ω` (state NP1 of the blocks, tangent,
  flags of the iteration, statistics).  They may fail.
* Printing, timers and the output frequency are not modelled; what is written for a completed load
  step is kept in the list `log`.
* `int` counters do not overflow.
-/

namespace Verif.QuasiStatic

open Verif Verif.BC Verif.Explicit

/-! ## The list of load steps -/

/-- The ways to give the load steps. -/
inductive Schedule where
  /-- "Initial Time", "Final Time", "Number of Load Steps" -/
  | uniform (timeInitial timeFinal : ℝ) (numLoadSteps : Int)
  /-- "Time Steps" -/
  | listed (times : List ℝ)
  | missing

/-- The list `timeSteps`.
Models src/core/Peridigm.cpp:2576-2598. -/
noncomputable def timeSteps : Schedule → Outcome (List ℝ)
  | .uniform t0 t1 n =>
      .ok (t0 :: (List.range n.toNat).map fun i : Nat => t0 + ((i : ℝ) + 1) * (t1 - t0) / n)
  | .listed ts => .ok ts
  | .missing => .fail .runtimeError

/-- "Adaptive Load-Stepping".
Models src/core/Peridigm.cpp:2605-2607, 2611-2620. -/
structure Adaptive where
  maxInOneStep : Int
  maxTotal : Int
  reduceAll : Bool

/-- Parameters of the solver.
Models src/core/Peridigm.cpp:2480-2560 (those that matter here) and 2611-2629. -/
structure Params where
  tolerance : ℝ
  useAbsoluteTolerance : Bool
  maxSolverIterations : Nat
  disableHeuristics : Bool
  initPredictor : Bool
  adaptive : Option Adaptive

/-- What does not change during the run. -/
structure Env where
  C : Ctx
  cs : Conditions
  dofs : Dof.Manager
  volume : Nat → ℝ

/-- `y->MyLength()`. -/
def Env.length (E : Env) : Nat := 3 * E.C.owned.length

/-- The functions that are left open, see the module comment. -/
structure Solver (σ ω : Type) where
  /-- internal force density at the given vectors.
  Models src/core/Peridigm.cpp:4192-4220, 4228. -/
  force : σ → ω → ℝ → Vecs → Outcome (ω × (Nat → ℝ))
  /-- tangent and linear solver in the given iteration; `none` if it does not converge.
  Models src/core/Peridigm.cpp:2770-2822. -/
  direction : σ → ω → ℝ → Nat → Vecs → (Nat → ℝ) → Outcome (ω × Option (Nat → ℝ))
  /-- step length.
  Models src/core/Peridigm.cpp:3364-3618. -/
  lineSearch : σ → ω → ℝ → Vecs → (Nat → ℝ) → (Nat → ℝ) → Outcome (ω × ℝ)
  /-- exchange of state N and state NP1.
  Models src/core/Peridigm.cpp:2994-2996. -/
  shift : σ → ω → σ × ω

/-! ## Residual and tolerance -/

/-- `Norm2`. -/
noncomputable def norm2 (n : Nat) (r : Nat → ℝ) : ℝ := Real.sqrt (∑ i ∈ Finset.range n, r i ^ 2)

/-- `NormInf`. -/
noncomputable def normInf (n : Nat) (r : Nat → ℝ) : ℝ :=
  (List.range n).foldl (fun m i => max m |r i|) 0

/-- `applyKinematicBC_InsertZeros` on a vector with the tangent's map.
Models src/core/Peridigm.cpp:2767, 2828, 4307. -/
noncomputable def zeroed (E : Env) (f : Nat → ℝ) : Outcome (Nat → ℝ) := do
  let l ← insertZeros E.dofs (tangentGids E.dofs.total E.C.owned) E.C.sets E.cs.boundary
    ((List.range E.length).map f)
  .ok fun i => l.getD i 0

/-- The number returned by `computeQuasiStaticResidual`.
Models src/core/Peridigm.cpp:4309-4316. -/
noncomputable def residualNorm (E : Env) (r : Nat → ℝ) : ℝ :=
  norm2 E.length r + 20 * normInf E.length r

/-- Where an evaluation of the residual leaves things: work data, force density, residual. -/
structure Balance (ω : Type) where
  work : ω
  force : Nat → ℝ
  residual : Nat → ℝ

/-- `computeQuasiStaticResidual`.
Models src/core/Peridigm.cpp:4176-4317 with displacements as the only unknowns. -/
noncomputable def balance {σ ω : Type} (E : Env) (S : Solver σ ω) (N : σ) (work : ω) (dt : ℝ)
    (w : Vecs) : Outcome (Balance ω) := do
  let p ← S.force N work dt w
  let r ← zeroed E fun i => (p.2 i + w .externalForce i) * E.volume (i / 3)
  .ok { work := p.1, force := p.2, residual := r }

/-- `toleranceMultiplier`.
Models src/core/Peridigm.cpp:2716-2732. -/
noncomputable def toleranceMultiplier (P : Params) (E : Env) (force : Nat → ℝ) : Outcome ℝ :=
  if P.useAbsoluteTolerance then .ok 1
  else do
    let l ← computeReactions E.dofs E.C.owned E.C.sets E.cs.boundary ((List.range E.length).map force)
    .ok (norm2 E.length fun i => l.getD i 0 * E.volume (i / 3))

/-! ## One load step -/

open Classical in
/-- Positions and velocities from displacement and increment; an increment of zero length makes the
velocity not finite.
Models src/core/Peridigm.cpp:2684-2687, 2861-2862. -/
noncomputable def place (E : Env) (dt : ℝ) (w : Vecs) : Outcome Vecs :=
  if dt = 0 then .ub
  else .ok (setVec (setVec w .y fun i => E.C.x i + w .u i + w .deltaU i) .v fun i => w .deltaU i / dt)

/-- State of the nonlinear iteration. -/
structure Iter (ω : Type) where
  vecs : Vecs
  bal : Balance ω
  norm : ℝ

/-- The increment proposed in an iteration: the predictor or the solution of the linear system;
`none` if the linear solver does not converge.
Models src/core/Peridigm.cpp:2763-2822. -/
noncomputable def increment {σ ω : Type} (P : Params) (E : Env) (S : Solver σ ω) (N : σ)
    (predictor : Nat → ℝ) (dt : ℝ) (step iteration : Nat) (t : Iter ω) :
    Outcome (ω × Option (Nat → ℝ)) :=
  if iteration = 1 ∧ (1 < step ∨ P.initPredictor = true) ∧ P.disableHeuristics = false then do
    let l ← zeroed E fun i => predictor i * dt
    .ok (t.bal.work, some l)
  else S.direction N t.bal.work dt iteration t.vecs t.bal.residual

/-- `alpha`.
Models src/core/Peridigm.cpp:2831. -/
noncomputable def stepLength {σ ω : Type} (P : Params) (S : Solver σ ω) (N : σ) (work : ω) (dt : ℝ)
    (t : Iter ω) (lhs : Nat → ℝ) : Outcome (ω × ℝ) :=
  if P.disableHeuristics then .ok (work, 1) else S.lineSearch N work dt t.vecs t.bal.residual lhs

/-- The part of an iteration after the linear solver has converged.
Models src/core/Peridigm.cpp:2826-2866. -/
noncomputable def applyIncrement {σ ω : Type} (P : Params) (E : Env) (S : Solver σ ω) (N : σ)
    (dt : ℝ) (t : Iter ω) (work : ω) (lhs : Nat → ℝ) : Outcome (Iter ω) := do
  let l ← zeroed E lhs
  let a ← stepLength P S N work dt t l
  let w ← place E dt (setVec t.vecs .deltaU fun i => t.vecs .deltaU i + a.2 * l i)
  let b ← balance E S N a.1 dt w
  .ok { vecs := w, bal := b, norm := residualNorm E b.residual }

open Classical in
/-- The nonlinear iteration, `fuel` iterations before the counter exceeds its maximum.  Failure of
the linear solver ends it with a residual of 1e50.
Models src/core/Peridigm.cpp:2746-2877. -/
noncomputable def newton {σ ω : Type} (P : Params) (E : Env) (S : Solver σ ω) (N : σ)
    (predictor : Nat → ℝ) (dt : ℝ) (step : Nat) (tol : ℝ) : Nat → Nat → Iter ω → Outcome (Iter ω)
  | 0, _, t => .ok t
  | fuel + 1, iteration, t =>
      if tol < t.norm then do
        let p ← increment P E S N predictor dt step iteration t
        match p.2 with
        | none => .ok { t with bal := { t.bal with work := p.1 }, norm := 10 ^ 50 }
        | some lhs => do
            let t' ← applyIncrement P E S N dt t p.1 lhs
            newton P E S N predictor dt step tol fuel (iteration + 1) t'
      else .ok t

/-- Result of the attempt to solve one load step. -/
structure Attempt (ω : Type) where
  iter : Iter ω
  tol : ℝ

/-- The attempt to solve the load step from `tp` to `tc`.
Models src/core/Peridigm.cpp:2663-2877. -/
noncomputable def attempt {σ ω : Type} (P : Params) (E : Env) (S : Solver σ ω) (N : σ) (work : ω)
    (predictor : Nat → ℝ) (vecs : Vecs) (step : Nat) (tp tc : ℝ) : Outcome (Attempt ω) := do
  let w1 ← applyBoundary E.C E.cs.boundary tc tp (setVec vecs .deltaU fun _ => 0)
  let w2 ← applyForces E.C E.cs.force tc tp w1
  let w3 ← place E (tc - tp) w2
  let b ← balance E S N work (tc - tp) w3
  let m ← toleranceMultiplier P E b.force
  let t ← newton P E S N predictor (tc - tp) step (P.tolerance * m) P.maxSolverIterations 1
    { vecs := w3, bal := b, norm := residualNorm E b.residual }
  .ok { iter := t, tol := P.tolerance * m }

open Classical in
/-- The decision to accept the attempt.
Models src/core/Peridigm.cpp:2882-2883. -/
noncomputable def accepts {ω : Type} (a : Attempt ω) : Bool :=
  decide (¬ a.tol < a.iter.norm) || decide (a.iter.norm < 100 * a.tol)

/-! ## The loop over load steps -/

/-- What is written for a completed load step, with the numbers that led to its acceptance. -/
structure Record (ω : Type) where
  time : ℝ
  vecs : Vecs
  work : ω
  previous : ℝ
  attempt : Attempt ω

/-- Variables of the loop. -/
structure State (σ ω : Type) where
  times : List ℝ
  step : Nat
  timeCurrent : ℝ
  timePrevious : ℝ
  /-- `solverFailedToConverge` -/
  failed : Bool
  /-- `convergenceHasFailedInThisStep` -/
  failedInStep : Bool
  /-- `solverFailureInThisStep` -/
  inStep : Nat
  /-- `totalSolverFailure` -/
  total : Nat
  vecs : Vecs
  predictor : Nat → ℝ
  N : σ
  work : ω
  /-- completed load steps, oldest first -/
  log : List (Record ω)

/-- How a pass of the loop ends. -/
inductive Next (σ ω : Type) where
  | again (s : State σ ω)
  /-- the list of load steps is exhausted -/
  | finished (s : State σ ω)
  /-- `break` -/
  | gaveUp (s : State σ ω)

/-- The loop `while(timeSteps[step+i]<timeFinal) push_back(timeCurrent + (i+1)*timeIncrement)`.
With an increment that is not positive it never ends (`ub`: the vector outgrows the memory);
otherwise it stops with the first multiple of the increment that reaches `tf`.
Models src/core/Peridigm.cpp:2929-2933 (the number of passes is given in closed form). -/
noncomputable def extension (tc dt tf : ℝ) : Outcome (List ℝ) :=
  open Classical in
  if tf ≤ tc then .ok []
  else if dt ≤ 0 then .ub
  else .ok ((List.range ⌈(tf - tc) / dt⌉₊).map fun i : Nat => tc + ((i : ℝ) + 1) * dt)

/-- The list of load steps after a completed step.
Models src/core/Peridigm.cpp:2926-2934. -/
noncomputable def rescheduled (P : Params) (tf : ℝ) (times : List ℝ) (step : Nat)
    (failedInStep : Bool) (tc dt : ℝ) : Outcome (List ℝ) :=
  match P.adaptive with
  | none => .ok times
  | some A =>
      if A.reduceAll = true ∧ failedInStep = true then do
        let l ← extension tc dt tf
        .ok (times.take (step + 1) ++ l)
      else .ok times

/-- The old time of the coming attempt.
Models src/core/Peridigm.cpp:2657-2660. -/
def oldTime {σ ω : Type} (P : Params) (s : State σ ω) : ℝ :=
  if P.adaptive.isSome && s.failed then s.timePrevious else s.timeCurrent

/-- The end of a completed load step: output, exchange of states, next step.
Models src/core/Peridigm.cpp:2939-2997, 2655 (`step++`). -/
def commit {σ ω : Type} (S : Solver σ ω) (s : State σ ω) (times : List ℝ) (tp tc : ℝ)
    (a : Attempt ω) : State σ ω :=
  let w := setVec a.iter.vecs .u fun i => a.iter.vecs .u i + a.iter.vecs .deltaU i
  { times := times, step := s.step + 1, timeCurrent := tc, timePrevious := tp, failed := false,
    failedInStep := false, inStep := 0, total := s.total, vecs := w, predictor := w .v,
    N := (S.shift s.N a.iter.bal.work).1, work := (S.shift s.N a.iter.bal.work).2,
    log := s.log ++ [{ time := tc, vecs := w, work := a.iter.bal.work, previous := tp, attempt := a }] }

/-- The variables after a rejected attempt, before the failure is dealt with.
Models src/core/Peridigm.cpp:2659-2877. -/
def afterAttempt {σ ω : Type} (s : State σ ω) (tp tc : ℝ) (a : Attempt ω) : State σ ω :=
  { s with
    timeCurrent := tc, timePrevious := tp, failed := false, vecs := a.iter.vecs,
    work := a.iter.bal.work }

/-- Counts a failure.
Models src/core/Peridigm.cpp:2890-2891. -/
def counted {σ ω : Type} (s : State σ ω) : State σ ω :=
  { s with inStep := s.inStep + 1, total := s.total + 1 }

/-- Cuts the load step in half.
Models src/core/Peridigm.cpp:2905-2906, 2919-2924, 2655 (`step--` and `step++` cancel). -/
noncomputable def cut {σ ω : Type} (s : State σ ω) (tp tc : ℝ) : State σ ω :=
  { s with
    failed := true, failedInStep := true,
    times := s.times.insertIdx s.step (tp + (tc - tp) / 2) }

/-- A rejected attempt: give up or cut the load step in half.
Models src/core/Peridigm.cpp:2889-2924. -/
noncomputable def reject {σ ω : Type} (P : Params) (s : State σ ω) (tp tc : ℝ) (a : Attempt ω) :
    Next σ ω :=
  match P.adaptive with
  | none => .gaveUp (afterAttempt s tp tc a)
  | some A =>
      if A.maxTotal < s.total + 1 ∨ A.maxInOneStep < s.inStep + 1 then
        .gaveUp (counted (afterAttempt s tp tc a))
      else .again (cut (counted (afterAttempt s tp tc a)) tp tc)

/-- One pass of the loop.
Models src/core/Peridigm.cpp:2655-2999. -/
noncomputable def pass {σ ω : Type} (P : Params) (E : Env) (S : Solver σ ω) (tf : ℝ)
    (s : State σ ω) : Outcome (Next σ ω) :=
  match s.times[s.step]? with
  | none => .ok (.finished s)
  | some tc => do
      let a ← attempt P E S s.N s.work s.predictor s.vecs s.step (oldTime P s) tc
      if accepts a then do
        let l ← rescheduled P tf s.times s.step s.failedInStep tc (tc - oldTime P s)
        .ok (.again (commit S s l (oldTime P s) tc a))
      else .ok (reject P s (oldTime P s) tc a)

/-- At most `n` passes of the loop.
Models src/core/Peridigm.cpp:2655-2999. -/
noncomputable def run {σ ω : Type} (P : Params) (E : Env) (S : Solver σ ω) (tf : ℝ) :
    Nat → State σ ω → Outcome (Next σ ω)
  | 0, s => .ok (.again s)
  | n + 1, s => do
      let x ← pass P E S tf s
      match x with
      | .again s' => run P E S tf n s'
      | .finished s' => .ok (.finished s')
      | .gaveUp s' => .ok (.gaveUp s')

/-- The limits on the number of cuts are refused.
Models src/core/Peridigm.cpp:2616. -/
def badLimits (P : Params) : Bool :=
  match P.adaptive with
  | none => false
  | some A => decide (A.maxTotal < A.maxInOneStep)

/-- `predictor` before the first load step.
Models src/core/Peridigm.cpp:2488-2504. -/
def firstPredictor (P : Params) (vecs : Vecs) : Nat → ℝ :=
  if P.initPredictor then vecs .v else fun _ => 0

/-- The state before the first pass, and the final time.  An empty list of times is read out of
bounds.
Models src/core/Peridigm.cpp:2488-2504, 2542-2543, 2600-2643. -/
noncomputable def start {σ ω : Type} (P : Params) (E : Env) (ts : List ℝ) (vecs : Vecs)
    (N : σ) (work : ω) : Outcome (ℝ × State σ ω) :=
  match ts with
  | [] => .ub
  | t0 :: rest =>
      if badLimits P then .fail .runtimeError
      else do
        let w1 ← applyBoundary E.C E.cs.boundary t0 t0 (setVec vecs .v fun _ => 0)
        let w2 ← applyForces E.C E.cs.force t0 t0 w1
        .ok ((t0 :: rest).getLast (by simp),
          { times := t0 :: rest, step := 1, timeCurrent := t0, timePrevious := t0, failed := false,
            failedInStep := false, inStep := 0, total := 0, vecs := w2,
            predictor := firstPredictor P vecs, N := N, work := work, log := [] })

/-- `executeQuasiStatic` up to line 2999, cut off after `n` passes.
Models src/core/Peridigm.cpp:2470-2999. -/
noncomputable def execute {σ ω : Type} (P : Params) (E : Env) (S : Solver σ ω) (sched : Schedule)
    (vecs : Vecs) (N : σ) (work : ω) (n : Nat) : Outcome (Next σ ω) := do
  let ts ← timeSteps sched
  let p ← start P E ts vecs N work
  run P E S p.1 n p.2

/-- The vectors handed to the explicit solver after giving up, with "Switch to Verlet".
Models src/core/Peridigm.cpp:3032-3036. -/
def handover {σ ω : Type} (E : Env) (s : State σ ω) : Vecs :=
  setVec (setVec s.vecs .y fun i => E.C.x i + s.vecs .u i) .v s.predictor

/-- Initial and final time of the explicit run after giving up.
Models src/core/Peridigm.cpp:3024-3025. -/
def handoverTimes {σ ω : Type} (tf : ℝ) (s : State σ ω) : ℝ × ℝ := (s.timePrevious, tf)

end Verif.QuasiStatic
