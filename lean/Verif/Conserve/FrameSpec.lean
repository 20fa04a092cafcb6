import Verif.Conserve.Spec

/-! Statement of C259, about moving frames. -/

noncomputable section

namespace Verif.Conserve

open Verif Verif.Mech Verif.Explicit

variable {σ : Type}

/-- The evaluation is objective for the rotation (or reflection) `Q`: with positions moved by `Q` and any translation, and the data of the
blocks related by `R` (which says how data of the past change in a moved body), it succeeds if it does without the motion, and delivers the
rotated forces and related data. -/
def Objective (Q : Matrix (Fin 3) (Fin 3) ℝ) (R : σ → σ → Prop) (eval : Eval σ) : Prop :=
  ∀ (c : V3) (b d : σ) (n : Nat) (w z : BC.Vecs) (b' : σ) (f : Nat → ℝ), R b d → (∀ l, at3 (z .y) l = Q.mulVec (at3 (w .y) l) + c) →
    eval b n w = .ok (b', f) → ∃ d' g, eval d n z = .ok (d', g) ∧ R b' d' ∧ ∀ l, at3 g l = Q.mulVec (at3 f l)

end Verif.Conserve
