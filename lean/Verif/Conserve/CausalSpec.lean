import Verif.Conserve.Spec

/-! Statements of C262 and C263, about superposition and the speed of propagation. -/

noncomputable section

namespace Verif.Conserve

open Verif Verif.Neigh Verif.Mech Verif.Explicit

variable {σ : Type}

/-- Two points belong to one neighborhood, the point in its middle included. -/
def Share (nbs : List (List Nat)) (l l' : Nat) : Prop := ∃ i ns, nbs[i]? = some ns ∧ l ∈ i :: ns ∧ l' ∈ i :: ns

/-- The point `l'` can be reached from `l` in at most `n` jumps from point to point within one neighborhood. -/
inductive Reach (nbs : List (List Nat)) : Nat → Nat → Nat → Prop
  | here {n l} : Reach nbs n l l
  | jump {n l m l'} : Share nbs l m → Reach nbs n m l' → Reach nbs (n + 1) l l'

/-- Displacement, velocity and acceleration of the point `l` are the same in two states. -/
def SameAt (s r : State σ) (l : Nat) : Prop :=
  at3 (s.vecs .u) l = at3 (r.vecs .u) l ∧ at3 (s.vecs .v) l = at3 (r.vecs .v) l ∧ at3 s.a l = at3 r.a l

end Verif.Conserve
