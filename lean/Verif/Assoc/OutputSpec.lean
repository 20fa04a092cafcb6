import Verif.Assoc.OutputModel
import Verif.Assoc.Spec

/-!
# Bond-associated correspondence material: terms used by the properties of the written fields
-/

noncomputable section

namespace Verif.Assoc

open Verif Verif.Neigh Verif.Mech Verif.Tensor Matrix
open scoped Classical

/-- The Green-Lagrange strain of a deformation gradient. -/
def green (F : Matrix (Fin 3) (Fin 3) ℝ) : Matrix (Fin 3) (Fin 3) ℝ := (1 / 2 : ℝ) • (Fᵀ * F - 1)

/-- Half the sum of `(F - G)ᵀ (F - G)` over consecutive entries of a list. -/
def jumps : List (Matrix (Fin 3) (Fin 3) ℝ) → Matrix (Fin 3) (Fin 3) ℝ
  | F :: G :: l => (1 / 2 : ℝ) • ((F - G)ᵀ * (F - G)) + jumps (G :: l)
  | _ => 0

/-- States of an analysis in which no bond breaks, by explicit time integration: each step moves the points by the time step
times the velocities which the material sees.  The first argument is the displacement, the second the deformation gradients
written in the steps so far, the last first.  Further evaluations that do not end a step, like the one at the
beginning of the analysis, may occur. -/
inductive Explicit (B : Body) (D : Decompose) (order : Nat) (U N : Update) (ghost : Nat → ℝ) (nbs : List (List Nat)) :
    (Nat → V3) → List (Nat → M9) → State → Shown → Prop where
  | start {s : State} : initialState B D order ghost nbs.length (encode nbs) = .ok s →
      Explicit B D order U N ghost nbs (fun _ => 0) [] s shownStart
  | again {u : Nat → V3} {hist : List (Nat → M9)} {s : State} {o : Shown} {dt : ℝ} {H : Harm} {u' y v : Nat → V3} {g : Ghosts} {r : Result}
      {w : Written} : Explicit B D order U N ghost nbs u hist s o → H.bondDamage = (fun _ => 0) →
      evaluationWritten B D order U N dt H u' y v g s o nbs.length (encode nbs) = .ok (r, w) →
      Explicit B D order U N ghost nbs u hist (r.trial s) o
  | step {u : Nat → V3} {hist : List (Nat → M9)} {s : State} {o : Shown} {dt : ℝ} {H : Harm} {u' y v : Nat → V3} {g : Ghosts} {r : Result}
      {w : Written} : Explicit B D order U N ghost nbs u hist s o → H.bondDamage = (fun _ => 0) →
      (∀ k, u' k = u k + dt • v k) → (∀ k, y k = B.x k + u' k) →
      evaluationWritten B D order U N dt H u' y v g s o nbs.length (encode nbs) = .ok (r, w) →
      Explicit B D order U N ghost nbs u' (r.pre.grad :: hist) (r.next s) w.kept

/-- A stress update given by one function of rate and stress for all points or bonds. -/
def pointwise (law : ℝ → M9 → M9 → M9) : Update := fun dt D s => .ok fun k => law dt (D k) (s k)

/-- States of an analysis in which no bond breaks and the body is deformed affinely, by matrices and rates that may differ from
evaluation to evaluation. -/
inductive AffineRun (B : Body) (D : Decompose) (order : Nat) (U N : Update) (ghost : Nat → ℝ) (nbs : List (List Nat)) :
    State → Shown → Prop where
  | start {s : State} : initialState B D order ghost nbs.length (encode nbs) = .ok s → AffineRun B D order U N ghost nbs s shownStart
  | step {s : State} {o : Shown} {dt : ℝ} {H : Harm} {u y v : Nat → V3} {g : Ghosts} {r : Result} {w : Written}
      {F A : Matrix (Fin 3) (Fin 3) ℝ} {f a : V3} : AffineRun B D order U N ghost nbs s o → H.bondDamage = (fun _ => 0) →
      (∀ k, u k = y k - B.x k) → (∀ k, y k = F.mulVec (B.x k) + f) → (∀ k, v k = A.mulVec (B.x k) + a) →
      evaluationWritten B D order U N dt H u y v g s o nbs.length (encode nbs) = .ok (r, w) →
      AffineRun B D order U N ghost nbs (r.next s) w.kept

end Verif.Assoc
