import Verif.QuasiStatic.Model

/-!
# Implicit diffusion (model)

Models `Peridigm::executeImplicitDiffusion`, src/core/Peridigm.cpp:3045-3278, and
`Peridigm::computeQuasiStaticResidual`, src/core/Peridigm.cpp:4176-4317, with any choice of unknowns.

* The vectors are those of one processor or the concatenation of the vectors of all processors; the
  statements of the loop act entry by entry and the norms are global.
* The model evaluator and the tangent with preconditioner and linear solver are arbitrary functions,
  collected in `Solver`.  They read state N of the blocks (`σ`) and read and write everything else
  they keep in `ω`.  They may fail.
* Printing, timers and the output frequency are not modelled; what is written for a completed load
  step is kept in a list.
-/

namespace Verif.Thermal

open Verif Verif.BC Verif.Explicit Verif.QuasiStatic Verif.Dof

/-- "Relative Tolerance" or "Absolute Tolerance", "Maximum Solver Iterations".
Models src/core/Peridigm.cpp:3056-3064. -/
structure Params where
  tolerance : ℝ
  useAbsoluteTolerance : Bool
  maxSolverIterations : Nat

/-- The functions that are left open, see the module comment. -/
structure Solver (σ ω : Type) where
  /-- the densities of the four balances, by local entry number.
  Models src/core/Peridigm.cpp:4192-4228, 4234-4246, 4251-4263, 4268-4280. -/
  evaluate : σ → ω → ℝ → Vecs → Outcome (ω × (Unknown → Nat → ℝ))
  /-- tangent and linear solver; `none` if it does not converge.
  Models src/core/Peridigm.cpp:3193-3207. -/
  direction : σ → ω → ℝ → Vecs → (Nat → ℝ) → Outcome (ω × Option (Nat → ℝ))
  /-- exchange of state N and state NP1.
  Models src/core/Peridigm.cpp:3270-3272. -/
  shift : σ → ω → σ × ω

/-! ## Residual and tolerance -/

/-- Length of the vectors with the tangent's map.
Models src/core/Peridigm.cpp:3050-3051 with 4023-4037. -/
def size (E : Env) : Nat := E.dofs.total * E.C.owned.length

/-- The unknown and its component that occupy slot `s` of a node.  Of two that occupy the same slot
the code leaves the value of the later one; the layouts `initialize` makes have no such slot.
Models the offsets in src/core/Peridigm.cpp:4214, 4229, 4233, 4247, 4250, 4264, 4267, 4281. -/
def occupant (m : Manager) (s : Nat) : Option (Unknown × Nat) :=
  [Unknown.pressure, .concentration, .temperature, .displacement].findSome? fun q =>
    if m.active q = true ∧ m.offset q ≤ s ∧ s < m.offset q + m.number q then
      some (q, s - m.offset q)
    else none

/-- The residual density in entry `i`: the density of the balance that belongs to the slot, and for
displacements also the external force.
Models src/core/Peridigm.cpp:4211-4294. -/
def density (m : Manager) (dens : Unknown → Nat → ℝ) (external : Nat → ℝ) (i : Nat) : ℝ :=
  match occupant m (i % m.total) with
  | none => 0
  | some (.displacement, k) =>
      dens .displacement (i / m.total * m.number .displacement + k) +
        external (i / m.total * m.number .displacement + k)
  | some (q, _) => dens q (i / m.total)

/-- `applyKinematicBC_InsertZeros` on a vector with the tangent's map.
Models src/core/Peridigm.cpp:3199, 3211, 4307. -/
noncomputable def zeroed (E : Env) (f : Nat → ℝ) : Outcome (Nat → ℝ) := do
  let l ← insertZeros E.dofs (tangentGids E.dofs.total E.C.owned) E.C.sets E.cs.boundary
    ((List.range (size E)).map f)
  .ok fun i => l.getD i 0

/-- The number returned by `computeQuasiStaticResidual`.
Models src/core/Peridigm.cpp:4309-4316. -/
noncomputable def residualNorm (E : Env) (r : Nat → ℝ) : ℝ :=
  norm2 (size E) r + 20 * normInf (size E) r

/-- Where an evaluation of the residual leaves things: work data, the mothership vector
`fluxDivergence`, residual. -/
structure Balance (ω : Type) where
  work : ω
  flux : Nat → ℝ
  residual : Nat → ℝ

/-- The mothership vector `fluxDivergence`, which keeps its initial zeros unless temperature is an
unknown.
Models src/core/Peridigm.cpp:4233-4241. -/
def fluxVector (m : Manager) (dens : Unknown → Nat → ℝ) : Nat → ℝ :=
  if m.active .temperature then dens .temperature else fun _ => 0

/-- `computeQuasiStaticResidual`.
Models src/core/Peridigm.cpp:4176-4317. -/
noncomputable def balance {σ ω : Type} (E : Env) (S : Solver σ ω) (N : σ) (work : ω) (dt : ℝ)
    (w : Vecs) : Outcome (Balance ω) := do
  let p ← S.evaluate N work dt w
  let r ← zeroed E fun i => density E.dofs p.2 (w .externalForce) i * E.volume (i / E.dofs.total)
  .ok { work := p.1, flux := fluxVector E.dofs p.2, residual := r }

/-- `toleranceMultiplier`.  The vector `fluxDivergence` has one entry per node; with more unknowns
than one the reactions are looked up beyond its end.
Models src/core/Peridigm.cpp:3166-3176. -/
noncomputable def toleranceMultiplier (P : Params) (E : Env) (flux : Nat → ℝ) : Outcome ℝ :=
  if P.useAbsoluteTolerance then .ok 1
  else do
    let l ← computeReactions E.dofs E.C.owned E.C.sets E.cs.boundary
      ((List.range E.C.owned.length).map flux)
    .ok (norm2 E.C.owned.length fun i => l.getD i 0 * E.volume i)

/-! ## One load step -/

/-- State of the nonlinear iteration. -/
structure Iter (ω : Type) where
  vecs : Vecs
  bal : Balance ω
  norm : ℝ

/-- Entry `i` of the increment is added to the temperature of node `i`; if there are no unknowns the
increment is read out of bounds.
Models src/core/Peridigm.cpp:3217-3219. -/
noncomputable def heat (E : Env) (lhs : Nat → ℝ) (w : Vecs) : Outcome Vecs :=
  if E.dofs.total = 0 ∧ E.C.owned ≠ [] then .ub
  else .ok (setVec w .temperature fun i =>
    if i < E.C.owned.length then w .temperature i + 1 * lhs i else w .temperature i)

/-- The part of an iteration after the linear solver has converged.
Models src/core/Peridigm.cpp:3209-3224. -/
noncomputable def applyIncrement {σ ω : Type} (E : Env) (S : Solver σ ω) (N : σ) (dt : ℝ)
    (t : Iter ω) (work : ω) (lhs : Nat → ℝ) : Outcome (Iter ω) := do
  let l ← zeroed E lhs
  let w ← heat E l t.vecs
  let b ← balance E S N work dt w
  .ok { vecs := w, bal := b, norm := residualNorm E b.residual }

open Classical in
/-- The nonlinear iteration, `fuel` iterations before the counter exceeds its maximum.  Failure of
the linear solver ends it with a residual of 1e50.
Models src/core/Peridigm.cpp:3181-3233. -/
noncomputable def newton {σ ω : Type} (E : Env) (S : Solver σ ω) (N : σ) (dt tol : ℝ) :
    Nat → Iter ω → Outcome (Iter ω)
  | 0, t => .ok t
  | fuel + 1, t =>
      if tol < t.norm then do
        let p ← S.direction N t.bal.work dt t.vecs t.bal.residual
        match p.2 with
        | none => .ok { t with bal := { t.bal with work := p.1 }, norm := 10 ^ 50 }
        | some lhs => do
            let t' ← applyIncrement E S N dt t p.1 lhs
            newton E S N dt tol fuel t'
      else .ok t

/-- Result of the attempt to solve one load step. -/
structure Attempt (ω : Type) where
  iter : Iter ω
  tol : ℝ

/-- The attempt to solve the load step from `tp` to `tc`.
Models src/core/Peridigm.cpp:3149-3233. -/
noncomputable def attempt {σ ω : Type} (P : Params) (E : Env) (S : Solver σ ω) (N : σ) (work : ω)
    (vecs : Vecs) (tp tc : ℝ) : Outcome (Attempt ω) := do
  let w1 ← applyBoundary E.C E.cs.boundary tc tp vecs
  let w2 ← applyForces E.C E.cs.force tc tp w1
  let b ← balance E S N work (tc - tp) w2
  let m ← toleranceMultiplier P E b.flux
  let t ← newton E S N (tc - tp) (P.tolerance * m) P.maxSolverIterations
    { vecs := w2, bal := b, norm := residualNorm E b.residual }
  .ok { iter := t, tol := P.tolerance * m }

open Classical in
/-- The decision to accept the attempt.
Models src/core/Peridigm.cpp:3238-3239. -/
noncomputable def accepts {ω : Type} (a : Attempt ω) : Bool :=
  decide (¬ a.tol < a.iter.norm) || decide (a.iter.norm < 100 * a.tol)

/-! ## The loop over load steps -/

/-- What is written for a completed load step, with the numbers that led to its acceptance. -/
structure Record (ω : Type) where
  time : ℝ
  previous : ℝ
  attempt : Attempt ω

/-- What has been written, and whether all load steps were completed. -/
structure Result (ω : Type) where
  log : List (Record ω)
  finished : Bool

/-- One more load step has been written.
Models src/core/Peridigm.cpp:3264-3268. -/
def Result.cons {ω : Type} (r : Record ω) (x : Result ω) : Result ω :=
  { log := r :: x.log, finished := x.finished }

/-- The loop over load steps; an attempt that is not accepted ends the analysis
(`solverFailedToConverge` is never set).
Models src/core/Peridigm.cpp:3141-3274. -/
noncomputable def steps {σ ω : Type} (P : Params) (E : Env) (S : Solver σ ω) :
    List ℝ → ℝ → σ → ω → Vecs → Outcome (Result ω)
  | [], _, _, _, _ => .ok { log := [], finished := true }
  | tc :: rest, tp, N, work, vecs => do
      let a ← attempt P E S N work vecs tp tc
      if accepts a then do
        let x ← steps P E S rest tc (S.shift N a.iter.bal.work).1 (S.shift N a.iter.bal.work).2
          a.iter.vecs
        .ok (x.cons { time := tc, previous := tp, attempt := a })
      else .ok { log := [], finished := false }

/-- The vectors written before the first load step: boundary conditions, body forces, initial
conditions, in this order.
Models src/core/Peridigm.cpp:3117-3136. -/
noncomputable def initially (E : Env) (t0 : ℝ) (vecs : Vecs) : Outcome Vecs := do
  let w1 ← applyBoundary E.C E.cs.boundary t0 t0 vecs
  let w2 ← applyForces E.C E.cs.force t0 t0 w1
  applyInitial E.C E.cs.initial w2

/-- `executeImplicitDiffusion` from the list of times: the vectors written at first, and the load
steps.  An empty list is read out of bounds.
Models src/core/Peridigm.cpp:3117-3278. -/
noncomputable def simulate {σ ω : Type} (P : Params) (E : Env) (S : Solver σ ω) (N : σ) (work : ω)
    (vecs : Vecs) : List ℝ → Outcome (Vecs × Result ω)
  | [] => .ub
  | t0 :: rest => do
      let w ← initially E t0 vecs
      let x ← steps P E S rest t0 N work w
      .ok (w, x)

/-- `executeImplicitDiffusion`; the list of times is made as in `executeQuasiStatic`.
Models src/core/Peridigm.cpp:3045-3278 (the list at 3095-3115 repeats 2576-2598). -/
noncomputable def execute {σ ω : Type} (P : Params) (E : Env) (S : Solver σ ω) (sched : Schedule)
    (N : σ) (work : ω) (vecs : Vecs) : Outcome (Vecs × Result ω) := do
  let ts ← timeSteps sched
  simulate P E S N work vecs ts

end Verif.Thermal
