import Verif.QuasiStatic.Model
import Verif.Tensor.Model

/-!
# Quasi-statics with NOX (model)

Models the interface between Peridigm and the nonlinear solver library NOX: `evaluateNOX` (residual
and tangent at a vector proposed by NOX), `computePreconditioner`, and the load steps of
`executeNOXQuasiStatic`, src/core/Peridigm.cpp:1603-1835, 1958-2468.

* The materials are left open: a function that gives the contribution of each block to the force
  density (and to the fluid flow density).  It reads state N of the blocks `σ`, and reads and writes
  everything else in the blocks, `ω`.
* NOX itself is left open: in a load step it evaluates the residual at a list of vectors it is free
  to choose and ends with a vector it declares converged.
* The tangent is the block diagonal one, a 3x3 matrix per owned node.
* Printing, timers and output frequency are not modelled.
-/

namespace Verif.Nox

open Verif Verif.BC Verif.Explicit Verif.Tensor

/-! ## Residual, displacements only -/

/-- `force->Update(1.0, *scratch, 1.0)` for one block after the other.
Models src/core/Peridigm.cpp:1747-1758, 1774-1778. -/
noncomputable def accumulate (f : Nat → ℝ) (contributions : List (Nat → ℝ)) : Nat → ℝ :=
  contributions.foldl (fun f c i => f i + c i) f

/-- The data that an evaluation reads and writes. -/
structure Data (ω : Type) where
  vecs : Vecs
  work : ω
  force : Nat → ℝ
  fluidFlow : Nat → ℝ

/-- The materials, see the module comment: contributions of the blocks to the force density and to
the fluid flow density.
Models src/core/Peridigm.cpp:1710-1742 with 1753-1754, 1776. -/
structure Materials (σ ω : Type) where
  blocks : σ → ω → ℝ → Vecs → Outcome (ω × List ((Nat → ℝ) × (Nat → ℝ)))

open Classical in
/-- Positions and velocities at the vector proposed by NOX.
Models src/core/Peridigm.cpp:1702-1706. -/
noncomputable def moved (E : QuasiStatic.Env) (dt : ℝ) (bcVelocity soln : Nat → ℝ) (w : Vecs) :
    Outcome Vecs :=
  if dt = 0 then .ub
  else .ok (setVec (setVec w .y fun i => E.C.x i + w .u i + soln i) .v
    fun i => soln i / dt + bcVelocity i)

/-- `evaluateNOX` for the residual, displacements only.
Models src/core/Peridigm.cpp:1700-1736, 1738-1742, 1769-1783, 1805-1818. -/
noncomputable def residual {σ ω : Type} (E : QuasiStatic.Env) (S : Materials σ ω) (N : σ) (dt : ℝ)
    (bcVelocity : Nat → ℝ) (s : Data ω) (soln : Nat → ℝ) : Outcome (Data ω × (Nat → ℝ)) := do
  let w ← moved E dt bcVelocity soln s.vecs
  let p ← S.blocks N s.work dt w
  let f := accumulate (fun _ => 0) (p.2.map Prod.fst)
  let r ← QuasiStatic.zeroed E fun i => (f i + w .externalForce i) * E.volume (i / 3)
  .ok ({ s with vecs := w, work := p.1, force := f }, r)

/-- Several evaluations one after the other.
Models the calls of `computeF` by NOX, src/core/Peridigm.cpp:1595-1597. -/
noncomputable def residuals {σ ω : Type} (E : QuasiStatic.Env) (S : Materials σ ω) (N : σ) (dt : ℝ)
    (bcVelocity : Nat → ℝ) : Data ω → List (Nat → ℝ) → Outcome (Data ω × List (Nat → ℝ))
  | s, [] => .ok (s, [])
  | s, x :: xs => do
      let p ← residual E S N dt bcVelocity s x
      let q ← residuals E S N dt bcVelocity p.1 xs
      .ok (q.1, p.2 :: q.2)

/-! ## Residual, with fluid pressure -/

/-- Entry `i` of a combined vector with three displacements and `extra` further unknowns per node,
of which only the first, the pressure, is ever written.
Models src/core/Peridigm.cpp:1761-1766. -/
noncomputable def combined (extra : Nat) (a b : Nat → ℝ) (i : Nat) : ℝ :=
  if i % (3 + extra) < 3 then a (i / (3 + extra) * 3 + i % (3 + extra))
  else if i % (3 + extra) = 3 then b (i / (3 + extra))
  else 0

open Classical in
/-- Positions, velocities and pressures at the vector proposed by NOX; the combined vector of
displacements is taken to agree with `u` and `fluidPressureU`, from which it is filled at the
beginning of a load step (2167-2172).
Models src/core/Peridigm.cpp:1679-1690. -/
noncomputable def movedMulti (E : QuasiStatic.Env) (extra : Nat) (dt : ℝ)
    (bcVelocity bcPressureV soln : Nat → ℝ) (w : Vecs) : Outcome Vecs :=
  if dt = 0 then .ub
  else .ok (setVec (setVec (setVec (setVec w
    .y fun i => w .u i + E.C.x i + soln (i / 3 * (3 + extra) + i % 3))
    .v fun i => soln (i / 3 * (3 + extra) + i % 3) / dt + bcVelocity i)
    .fluidPressureY fun i => w .fluidPressureU i + soln (i * (3 + extra) + 3))
    .fluidPressureV fun i => soln (i * (3 + extra) + 3) / dt + bcPressureV i)

/-- `unknownsForce` after the loop over the blocks: zero if there are none, otherwise the combination
of the accumulated force and flow.
Models src/core/Peridigm.cpp:1746-1767. -/
noncomputable def unknownsForce (extra blocks : Nat) (force flow : Nat → ℝ) (i : Nat) : ℝ :=
  if blocks = 0 then 0 else combined extra force flow i

/-- `applyKinematicBC_InsertZeros` on a combined vector.
Models src/core/Peridigm.cpp:1813. -/
noncomputable def zeroedMulti (E : QuasiStatic.Env) (extra : Nat) (f : Nat → ℝ) :
    Outcome (Nat → ℝ) := do
  let l ← insertZeros E.dofs (tangentGids E.dofs.total E.C.owned) E.C.sets E.cs.boundary
    ((List.range ((3 + extra) * E.C.owned.length)).map f)
  .ok fun i => l.getD i 0

/-- `evaluateNOX` for the residual, with fluid pressure.  Neither `force` nor `fluidFlow` is cleared
before the contributions of the blocks are added, and `externalForce` is not added.
Models src/core/Peridigm.cpp:1678-1699, 1710-1768, 1780-1818. -/
noncomputable def residualMulti {σ ω : Type} (E : QuasiStatic.Env) (extra : Nat) (S : Materials σ ω)
    (N : σ) (dt : ℝ) (bcVelocity bcPressureV : Nat → ℝ) (s : Data ω) (soln : Nat → ℝ) :
    Outcome (Data ω × (Nat → ℝ)) := do
  let w ← movedMulti E extra dt bcVelocity bcPressureV soln s.vecs
  let p ← S.blocks N s.work dt w
  let f := accumulate s.force (p.2.map Prod.fst)
  let q := accumulate s.fluidFlow (p.2.map Prod.snd)
  let r ← zeroedMulti E extra fun i => unknownsForce extra p.2.length f q i * E.volume (i / (3 + extra))
  .ok ({ vecs := w, work := p.1, force := f, fluidFlow := q }, r)

/-- Several evaluations one after the other. -/
noncomputable def residualsMulti {σ ω : Type} (E : QuasiStatic.Env) (extra : Nat)
    (S : Materials σ ω) (N : σ) (dt : ℝ) (bcVelocity bcPressureV : Nat → ℝ) :
    Data ω → List (Nat → ℝ) → Outcome (Data ω × List (Nat → ℝ))
  | s, [] => .ok (s, [])
  | s, x :: xs => do
      let p ← residualMulti E extra S N dt bcVelocity bcPressureV s x
      let q ← residualsMulti E extra S N dt bcVelocity bcPressureV p.1 xs
      .ok (q.1, p.2 :: q.2)

/-! ## Preconditioner -/

/-- `agePeridigmPreconditioner`, `m_noxJacobianUpdateCounter` and the block diagonal tangent.
Models the members, src/core/Peridigm.hpp, initialised at src/core/Peridigm.cpp:108-109. -/
structure Prec where
  age : Int
  counter : Int
  blocks : List M9

/-- `evaluateNOX` for the tangent: recomputed if the counter is a multiple of the trigger (a trigger
of zero divides by zero).  `tangent` is the block diagonal tangent at the vector passed by NOX.
Models src/core/Peridigm.cpp:1822-1832. -/
def tangentUpdate (trigger : Int) (tangent : List M9) (s : Prec) : Outcome Prec :=
  if trigger = 0 then .ub
  else if Int.tmod s.counter trigger = 0 then
    .ok { s with counter := s.counter + 1, blocks := tangent }
  else .ok { s with counter := s.counter + 1 }

/-- The inversion of the 3x3 blocks in place; a singular block terminates.
Models src/core/Peridigm.cpp:1616-1643. -/
noncomputable def invertBlocks : List M9 → Outcome (List M9)
  | [] => .ok []
  | m :: ms =>
      if (invert3 m).1 ≠ 0 then .fail .terminate
      else do
        let r ← invertBlocks ms
        .ok ((invert3 m).2 :: r)

/-- The age after the first three statements that a call which is not skipped executes.
Models src/core/Peridigm.cpp:1607-1609. -/
def nextAge (maxAge age : Int) : Int := (if age ≥ maxAge then 0 else age) + 1

/-- `computePreconditioner`.
Models src/core/Peridigm.cpp:1603-1647. -/
noncomputable def computePreconditioner (maxAge trigger : Int) (s : Prec) (tangent : List M9) :
    Outcome Prec :=
  if s.age > 0 ∧ s.age < maxAge then .ok s
  else do
    let s1 ← tangentUpdate trigger tangent { s with age := nextAge maxAge s.age }
    let b ← invertBlocks s1.blocks
    .ok { s1 with blocks := b }

/-- The calls of one load step; `tangents` lists the tangent at each vector passed.
Models the calls by NOX, src/core/Peridigm.cpp:2369-2385. -/
noncomputable def preconditioners (maxAge trigger : Int) : Prec → List (List M9) → Outcome Prec
  | s, [] => .ok s
  | s, t :: ts => do
      let s' ← computePreconditioner maxAge trigger s t
      preconditioners maxAge trigger s' ts

/-- Counter and age at the beginning of a load step.
Models src/core/Peridigm.cpp:2113, 2362. -/
def beginStep (s : Prec) : Prec := { s with age := 0, counter := 0 }

/-! ## Load steps, displacements only -/

/-- What NOX does in one load step: the vectors at which it evaluates the residual and the one it
returns.
Models src/core/Peridigm.cpp:2369-2389. -/
structure Solve where
  evaluated : List (Nat → ℝ)
  final : Nat → ℝ

/-- The initial guess: the velocity of the load step before, zero where a displacement is prescribed.
Models src/core/Peridigm.cpp:2136-2137, 2146. -/
noncomputable def initialGuess (E : QuasiStatic.Env) (dt : ℝ) (w : Vecs) : Outcome (Nat → ℝ) :=
  QuasiStatic.zeroed E fun i => w .v i * dt

/-- The part of a load step before NOX is called.
Models src/core/Peridigm.cpp:2115-2116, 2140, 2153-2188. -/
noncomputable def prepared (E : QuasiStatic.Env) (tp tc : ℝ) (w : Vecs) : Outcome Vecs := do
  let w1 ← applyBoundary E.C E.cs.boundary tc tp
    (setVec (setVec w .deltaU fun _ => 0) .v fun _ => 0)
  applyForces E.C E.cs.force tc tp (setVec w1 .u fun i => w1 .u i + w1 .deltaU i)

open Classical in
/-- The part of a load step after NOX has converged.
Models src/core/Peridigm.cpp:2446-2453. -/
noncomputable def concluded (dt : ℝ) (bcVelocity final : Nat → ℝ) (w : Vecs) : Outcome Vecs :=
  if dt = 0 then .ub
  else .ok (setVec (setVec w .v fun i => final i / dt + bcVelocity i) .u fun i => w .u i + final i)

/-- The evaluation made at the prescribed displacements if the tolerance is relative; the reactions
and the tolerance computed from it are numbers that only NOX sees and are not modelled.
Models src/core/Peridigm.cpp:2193-2194, 2213-2218, with src/core/Peridigm.cpp:4192-4220. -/
noncomputable def toleranceEvaluation {σ ω : Type} (E : QuasiStatic.Env) (S : Materials σ ω) (N : σ)
    (relative : Bool) (dt : ℝ) (s : Data ω) : Outcome (Data ω) :=
  if relative then do
    let w := setVec s.vecs .y fun i => E.C.x i + s.vecs .u i
    let p ← S.blocks N s.work dt w
    .ok { s with vecs := w, work := p.1, force := accumulate (fun _ => 0) (p.2.map Prod.fst) }
  else .ok s

/-- One load step from `tp` to `tc`; `none` for the behaviour of NOX means that it failed.
Models src/core/Peridigm.cpp:2104-2465. -/
noncomputable def loadStep {σ ω : Type} (E : QuasiStatic.Env) (S : Materials σ ω) (N : σ)
    (relative : Bool) (nox : (Nat → ℝ) → Option Solve) (tp tc : ℝ) (s : Data ω) :
    Outcome (Data ω) := do
  let g ← initialGuess E (tc - tp) s.vecs
  let w ← prepared E tp tc s.vecs
  let e ← toleranceEvaluation E S N relative (tc - tp) { s with vecs := w }
  match nox g with
  | none => .fail .terminate
  | some sol => do
      let p ← residuals E S N (tc - tp) (w .v) e sol.evaluated
      let w' ← concluded (tc - tp) (w .v) sol.final p.1.vecs
      .ok { p.1 with vecs := w' }

/-- What is written for a completed load step. -/
structure Record (ω : Type) where
  previous : ℝ
  time : ℝ
  data : Data ω

/-- The loop over the load steps: times of the remaining load steps and how NOX behaves in each.
`shift` is the exchange of state N and NP1.
Models src/core/Peridigm.cpp:2104-2465. -/
noncomputable def run {σ ω : Type} (E : QuasiStatic.Env) (S : Materials σ ω) (relative : Bool)
    (shift : σ → ω → σ × ω) : List (ℝ × ((Nat → ℝ) → Option Solve)) → ℝ → σ → Data ω →
    Outcome (List (Record ω))
  | [], _, _, _ => .ok []
  | (tc, nox) :: rest, tp, N, s => do
      let d ← loadStep E S N relative nox tp tc s
      let r ← run E S relative shift rest tc (shift N d.work).1 { d with work := (shift N d.work).2 }
      .ok ({ previous := tp, time := tc, data := d } :: r)

end Verif.Nox
