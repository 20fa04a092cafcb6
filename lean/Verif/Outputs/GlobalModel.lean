import Verif.Outputs.Model
import Verif.Tangent.Model

/-!
# Model of momentum and energy outputs and of the critical time step

Models Linear_Momentum, Angular_Momentum, Kinetic_Energy and Energy of /repo/src/compute and
/repo/src/core/Peridigm_CriticalTimeStep.cpp with its use in the explicit integrator.

Simplifications as in `Verif.Outputs.Model`.  In addition: `ownedIDs[i] = i` (property C06); the sanity
checks on the lengths of the vectors pass, the vectors having the same point map.  Division by zero and
the square root of a negative number are `ub`.  A run is a list of blocks, and a block a list of what each
processor holds of it, because each block is reduced over the processors before the next is begun.
-/

noncomputable section

namespace Verif.Outputs

open Verif Verif.Neigh Verif.Mech
open scoped Classical

/-- Owned points of one block on one processor, with the constants of the block's material and the
fields; `list` is the neighborhood list. -/
structure State where
  owned : Nat
  list : List Nat
  density : ℝ
  bulk : ℝ
  shear : ℝ
  vol : Nat → ℝ
  x : Nat → V3
  y : Nat → V3
  v : Nat → V3
  w : Nat → ℝ
  theta : Nat → ℝ

/-- A sum over the owned points, accumulated in order. -/
def State.accumulate (s : State) (f : Nat → ℝ) : ℝ := (List.range s.owned).foldl (fun a i => a + f i) 0

/-- The loop over blocks shared by the energies: each block's sum over processors is added. -/
def sumBlocks (f : State → ℝ) : List (List State) → Outcome ℝ
  | [] => .ok 0
  | b :: bs => do
    let e ← sumAll (b.map f)
    let rest ← sumBlocks f bs
    .ok (e + rest)

/-! ### Momentum -/

/-- Local value of the field `Linear_Momentum`, src/compute/Peridigm_Compute_Linear_Momentum.cpp:105,
120-136. -/
def State.linear (s : State) (i : Nat) : V3 := fun c => s.density * s.vol i * s.v i c

/-- Local value of the field `Angular_Momentum`, src/compute/Peridigm_Compute_Angular_Momentum.cpp:123-143. -/
def State.angular (s : State) (i : Nat) : V3 := fun c =>
  s.vol i * s.density * (s.v i (c + 1) * s.y i (c + 2) - s.v i (c + 2) * s.y i (c + 1))

/-- One block's contribution to the global value: the sums over points and processors of each component,
then the length, src/compute/Peridigm_Compute_Linear_Momentum.cpp:112-148 and
src/compute/Peridigm_Compute_Angular_Momentum.cpp:114-155. -/
def blockMomentum (f : State → Nat → V3) (b : List State) : Outcome ℝ := do
  let px ← sumAll (b.map fun s => s.accumulate fun i => f s i 0)
  let py ← sumAll (b.map fun s => s.accumulate fun i => f s i 1)
  let pz ← sumAll (b.map fun s => s.accumulate fun i => f s i 2)
  .ok (Real.sqrt (px * px + py * py + pz * pz))

/-- The global value, src/compute/Peridigm_Compute_Linear_Momentum.cpp:85-89, 148, 163-167 and
src/compute/Peridigm_Compute_Angular_Momentum.cpp:87-91, 155-161. -/
def globalMomentum (f : State → Nat → V3) : List (List State) → Outcome ℝ
  | [] => .ok 0
  | b :: bs => do
    let p ← blockMomentum f b
    let rest ← globalMomentum f bs
    .ok (p + rest)

/-- `computeLinearMomentum` with `storeLocal` false.
Models src/compute/Peridigm_Compute_Linear_Momentum.cpp:81-171. -/
def globalLinearMomentum (run : List (List State)) : Outcome ℝ := globalMomentum State.linear run

/-- `computeAngularMomentum` with `storeLocal` false.
Models src/compute/Peridigm_Compute_Angular_Momentum.cpp:83-165. -/
def globalAngularMomentum (run : List (List State)) : Outcome ℝ := globalMomentum State.angular run

/-! ### Energies -/

/-- Kinetic energy of a point, src/compute/Peridigm_Compute_Kinetic_Energy.cpp:124-136 and
src/compute/Peridigm_Compute_Energy.cpp:194-196. -/
def State.kinetic (s : State) (i : Nat) : ℝ :=
  0.5 * s.vol i * s.density * (s.v i 0 * s.v i 0 + s.v i 1 * s.v i 1 + s.v i 2 * s.v i 2)

/-- `computeKineticEnergy` with `storeLocal` false; also the kinetic part of `Compute_Energy::compute`.
Models src/compute/Peridigm_Compute_Kinetic_Energy.cpp:79-158 and src/compute/Peridigm_Compute_Energy.cpp:91-214. -/
def globalKinetic (run : List (List State)) : Outcome ℝ :=
  sumBlocks (fun s => s.accumulate s.kinetic) run

/-- `We`: sum over the neighbors of a point, src/compute/Peridigm_Compute_Energy.cpp:156-186. -/
def State.We (s : State) (i : Nat) (ns : List Nat) : ℝ :=
  ns.foldl (fun acc j => acc + 1 *
    (len (s.y j - s.y i) - len (s.x j - s.x i) - s.theta i * len (s.x j - s.x i) / 3) * s.vol j) 0

/-- Strain energy density of a point, src/compute/Peridigm_Compute_Energy.cpp:187-189. -/
def State.strainDensity (s : State) (i : Nat) (ns : List Nat) : Outcome ℝ :=
  if s.w i = 0 then .ub
  else .ok (0.5 * s.bulk * s.theta i * s.theta i + 0.5 * (15 * s.shear / s.w i) * s.We i ns)

/-- Strain energies of the points from `i` on, src/compute/Peridigm_Compute_Energy.cpp:151-193. -/
def State.strainFrom (s : State) : Nat → List (List Nat) → Outcome (List ℝ)
  | _, [] => .ok []
  | i, ns :: nbs => do
    let W ← s.strainDensity i ns
    let rest ← s.strainFrom (i + 1) nbs
    .ok (s.vol i * W :: rest)

/-- The field `Strain_Energy` of one block on one processor. -/
def State.strain (s : State) : Outcome (List ℝ) := do
  let nbs ← Tangent.neighborLists s.list s.owned 0
  s.strainFrom 0 nbs

/-- The strain part of `Compute_Energy::compute`: the sum over points, processors and blocks.
Models src/compute/Peridigm_Compute_Energy.cpp:91-219. -/
def globalStrain : List (List State) → Outcome ℝ
  | [] => .ok 0
  | b :: bs => do
    let locals ← collect (fun s => do
      let e ← s.strain
      .ok (e.foldl (· + ·) 0)) b
    let e ← sumAll locals
    let rest ← globalStrain bs
    .ok (e + rest)

/-! ### Critical time step -/

/-- Data of one block on one processor for the critical time step; `horizon` is the horizon at a position
(constant or evaluated, C51). -/
structure Mesh where
  owned : Nat
  list : List Nat
  density : ℝ
  bulk : ℝ
  horizon : V3 → ℝ
  vol : Nat → ℝ
  x : Nat → V3

/-- `1.0e50`. -/
def noLimit : ℝ := 10 ^ 50

/-- `springConstant`, src/core/Peridigm_CriticalTimeStep.cpp:77-80, 92-95. -/
def springConstant (bulk delta : ℝ) : Outcome ℝ :=
  if Real.pi * delta * delta * delta * delta = 0 then .ub
  else .ok (18 * bulk / (Real.pi * delta * delta * delta * delta))

/-- `timestepDenominator`, src/core/Peridigm_CriticalTimeStep.cpp:87, 97-113. -/
def Mesh.denominator (M : Mesh) (c : ℝ) (i : Nat) : List Nat → ℝ → Outcome ℝ
  | [], acc => .ok acc
  | j :: js, acc =>
    if len (M.x i - M.x j) = 0 then .ub
    else M.denominator c i js (acc + M.vol j * c / len (M.x i - M.x j))

/-- `sqrt(2.0*density/timestepDenominator)`, src/core/Peridigm_CriticalTimeStep.cpp:117. -/
def stableStep (density d : ℝ) : Outcome ℝ :=
  if d = 0 then .ub else if 2 * density / d < 0 then .ub else .ok (Real.sqrt (2 * density / d))

/-- `criticalTimeStep` of one point, src/core/Peridigm_CriticalTimeStep.cpp:87-117. -/
def Mesh.pointStep (M : Mesh) (i : Nat) (ns : List Nat) : Outcome ℝ := do
  let c ← springConstant M.bulk (M.horizon (M.x i))
  let d ← M.denominator c i ns 0
  if 0 < ns.length then stableStep M.density d else .ok noLimit

/-- The loop over owned points, src/core/Peridigm_CriticalTimeStep.cpp:82-120. -/
def Mesh.stepLoop (M : Mesh) : Nat → List (List Nat) → ℝ → Outcome ℝ
  | _, [], acc => .ok acc
  | i, ns :: nbs, acc => do
    let t ← M.pointStep i ns
    M.stepLoop (i + 1) nbs (if t < acc then t else acc)

/-- One processor's part of `ComputeCriticalTimeStep`, src/core/Peridigm_CriticalTimeStep.cpp:54-120. -/
def Mesh.localStep (M : Mesh) : Outcome ℝ := do
  let nbs ← Tangent.neighborLists M.list M.owned 0
  M.stepLoop 0 nbs noLimit

/-- `ComputeCriticalTimeStep` for one block.
Models src/core/Peridigm_CriticalTimeStep.cpp:54-127. -/
def blockStep (b : List Mesh) : Outcome ℝ := do
  let ls ← collect Mesh.localStep b
  minAll ls

/-- The minimum over blocks, src/core/Peridigm.cpp:1294-1300; the `MinAll` that follows (lines 1301-1303)
is over equal values. -/
def stepOverBlocks : List (List Mesh) → ℝ → Outcome ℝ
  | [], acc => .ok acc
  | b :: bs, acc => do
    let t ← blockStep b
    stepOverBlocks bs (if t < acc then t else acc)

/-- The time step of the explicit integrator: the critical time step or the one given as "Fixed dt",
times the "Safety Factor" if there is one.
Models src/core/Peridigm.cpp:1294-1315. -/
def explicitStep (fixed safety : Option ℝ) (run : List (List Mesh)) : Outcome ℝ := do
  let t ← stepOverBlocks run noLimit
  let dt := match fixed with | some f => f | none => t
  .ok (match safety with | some s => dt * s | none => dt)

end Verif.Outputs
