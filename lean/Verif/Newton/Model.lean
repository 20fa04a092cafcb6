import Verif.Common.Outcome
import Mathlib.Data.Real.Basic
import Mathlib.Algebra.Order.Group.Abs

/-!
# Newton's iteration with damped tangents (model)

Models the choice of the matrix in the nonlinear iteration of `Peridigm::executeQuasiStatic`,
src/core/Peridigm.cpp:2738-2877, and `Peridigm::quasiStaticsDampTangent`,
src/core/Peridigm.cpp:3302-3318.

* A distributed matrix is the list of the rows of each processor.
* The evaluation of tangent and residual, the linear solver, and what follows a solution of the linear
  system (line search, new positions, new residual) are arbitrary functions.  The linear solver has a
  state of its own.
* `usePreconditioner` is false at line 2740 and nothing makes it true, so that the branches on it are
  never taken; they are left out.
* `applyKinematicBC_InsertZeros(residual)` at line 2798 repeats what `computeQuasiStaticResidual` did
  last (line 4307); it is part of `residual`.
* Arithmetic is exact.
-/

namespace Verif.Newton

open Verif

/-! ## Damping -/

/-- A row of an `Epetra_FECrsMatrix`: its global id and the entries it has, by global column. -/
structure Row where
  gid : Nat
  entry : Nat → Option ℝ

/-- The rows of each processor. -/
abbrev Mat := List (List Row)

/-- `ExtractDiagonalCopy`: zero where the row has no diagonal entry.
Models src/core/Peridigm.cpp:3310. -/
noncomputable def Row.diagonal (r : Row) : ℝ := (r.entry r.gid).getD 0

/-- `ReplaceDiagonalValues`: entries that do not exist are not created.
Models src/core/Peridigm.cpp:3318. -/
def Row.replaceDiagonal (r : Row) (v : ℝ) : Row :=
  { r with entry := fun j => if j = r.gid then (r.entry j).map fun _ => v else r.entry j }

/-- `NormInf` of the entries on one processor. -/
noncomputable def localNormInf (l : List ℝ) : ℝ := l.foldr (fun a m => max |a| m) 0

/-- `NormInf`: the maximum over all processors.
Models src/core/Peridigm.cpp:3312-3313. -/
noncomputable def normInf (d : List (List ℝ)) : ℝ := localNormInf (d.map localNormInf)

/-- `quasiStaticsDampTangent`.
Models src/core/Peridigm.cpp:3302-3319. -/
noncomputable def damp (scale shift : ℝ) (A : Mat) : Mat :=
  let d := A.map fun rows => rows.map fun r => scale * r.diagonal
  A.map fun rows => rows.map fun r =>
    r.replaceDiagonal (scale * r.diagonal + shift * normInf d)

/-! ## The iteration -/

/-- Parameters of the nonlinear solver.
Models src/core/Peridigm.cpp:2480-2510 (those that matter here). -/
structure Params where
  scale : ℝ
  shift : ℝ
  disableHeuristics : Bool
  /-- `step > 1 || initPredictorFromPreviousSolver` -/
  predict : Bool

/-- The functions left open. -/
structure Problem (S V κ : Type) where
  /-- tangent of the state with the kinematic boundary conditions, times minus one.
  Models src/core/Peridigm.cpp:2791-2800. -/
  tangent : S → Outcome Mat
  /-- residual of the state, zero where displacements are prescribed -/
  residual : S → V
  /-- `residualNorm` -/
  norm : S → ℝ
  /-- `predictor*timeIncrement`, zero where displacements are prescribed.
  Models src/core/Peridigm.cpp:2765-2767. -/
  predictor : V
  /-- `quasiStaticsSolveSystem`; `none` if the solver does not converge or throws.
  Models src/core/Peridigm.cpp:3321-3341. -/
  solve : κ → Mat → V → Outcome (κ × Option V)
  /-- `linearProblem.setLeftPrec(null)`.
  Models src/core/Peridigm.cpp:2818. -/
  dropPrec : κ → κ
  /-- line search, new positions and new residual.
  Models src/core/Peridigm.cpp:2828-2866. -/
  advance : S → V → Outcome S

/-- What the iteration keeps besides the state: `dampedNewton`, `tangent`, and the linear solver. -/
structure Lin (κ : Type) where
  damped : Bool
  tangent : Mat
  solver : κ

/-- A linear system that was solved: iteration, state, matrix and answer. -/
structure Solve (S V : Type) where
  iteration : Nat
  state : S
  matrix : Mat
  answer : Option V

/-- `numPureNewtonSteps`.
Models src/core/Peridigm.cpp:2742. -/
def numPure : Nat := 50

/-- `dampedNewtonNumStepsBetweenTangentUpdates`.
Models src/core/Peridigm.cpp:2744. -/
def between : Nat := 8

/-- Whether the tangent is computed in this iteration; the remainder of a negative number is zero
exactly if the number is divisible.
Models src/core/Peridigm.cpp:2790. -/
def refreshes (damped : Bool) (iteration : Nat) : Bool :=
  !damped || ((iteration : Int) - numPure - 1).tmod between == 0

/-- The tangent of this iteration.
Models src/core/Peridigm.cpp:2773-2806. -/
noncomputable def prepare {S V κ : Type} (P : Params) (Q : Problem S V κ) (iteration : Nat) (s : S)
    (l : Lin κ) : Outcome (Lin κ) :=
  let damped := l.damped || (decide (numPure < iteration) && !P.disableHeuristics)
  if refreshes damped iteration then do
    let A ← Q.tangent s
    .ok { l with damped := damped, tangent := if damped then damp P.scale P.shift A else A }
  else .ok { l with damped := damped }

/-- Solution of the linear system, with a second attempt if the first one fails.
Models src/core/Peridigm.cpp:2809-2822. -/
noncomputable def solveTwice {S V κ : Type} (P : Params) (Q : Problem S V κ) (iteration : Nat) (s : S)
    (l : Lin κ) : Outcome (Lin κ × List (Solve S V) × Option V) := do
  let p ← Q.solve l.solver l.tangent (Q.residual s)
  let first : Solve S V := ⟨iteration, s, l.tangent, p.2⟩
  if p.2.isNone && !P.disableHeuristics then do
    let A := if l.damped then l.tangent else damp P.scale P.shift l.tangent
    let q ← Q.solve (Q.dropPrec p.1) A (Q.residual s)
    .ok (⟨true, A, q.1⟩, [first, ⟨iteration, s, A, q.2⟩], q.2)
  else .ok ({ l with solver := p.1 }, [first], p.2)

/-- The increment proposed in an iteration and the systems solved for it.
Models src/core/Peridigm.cpp:2763-2823. -/
noncomputable def propose {S V κ : Type} (P : Params) (Q : Problem S V κ) (iteration : Nat) (s : S)
    (l : Lin κ) : Outcome (Lin κ × List (Solve S V) × Option V) :=
  if iteration = 1 ∧ P.predict = true ∧ P.disableHeuristics = false then .ok (l, [], some Q.predictor)
  else do
    let l' ← prepare P Q iteration s l
    solveTwice P Q iteration s l'

/-- How the iteration ends: the last state unless the linear solver failed, the states visited with
the number of the iteration, and all linear systems, in the order in which they were solved. -/
structure Result (S V : Type) where
  final : Option S
  visited : List (Nat × S)
  solves : List (Solve S V)

open Classical in
/-- The nonlinear iteration, `fuel` iterations before the counter exceeds its maximum.
Models src/core/Peridigm.cpp:2746-2877. -/
noncomputable def iterate {S V κ : Type} (P : Params) (Q : Problem S V κ) (tol : ℝ) :
    Nat → Nat → S → Lin κ → Outcome (Result S V)
  | 0, iteration, s, _ => .ok ⟨some s, [(iteration, s)], []⟩
  | fuel + 1, iteration, s, l =>
      if tol < Q.norm s then do
        let p ← propose P Q iteration s l
        match p.2.2 with
        | none => .ok ⟨none, [(iteration, s)], p.2.1⟩
        | some x => do
            let s' ← Q.advance s x
            let r ← iterate P Q tol fuel (iteration + 1) s' p.1
            .ok ⟨r.final, (iteration, s) :: r.visited, p.2.1 ++ r.solves⟩
      else .ok ⟨some s, [(iteration, s)], []⟩

/-- The nonlinear iteration of a load step.
Models src/core/Peridigm.cpp:2738-2877. -/
noncomputable def solveStep {S V κ : Type} (P : Params) (Q : Problem S V κ) (tol : ℝ)
    (maxSolverIterations : Nat) (s : S) (left : Mat) (solver : κ) : Outcome (Result S V) :=
  iterate P Q tol maxSolverIterations 1 s ⟨false, left, solver⟩

end Verif.Newton
