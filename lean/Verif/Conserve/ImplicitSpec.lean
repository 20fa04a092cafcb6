import Verif.Conserve.NewmarkSpec

/-! Statements of C267, about the superposition of analyses in implicit dynamics. -/

noncomputable section

namespace Verif.Conserve

open Verif Verif.Neigh Verif.Mech

variable {σ σ' σ'' ω ω' ω'' : Type}

/-- Displacements, velocities and accelerations of `N` points are `a` times those of the first state plus `b` times those of the second. -/
def Combination (N : Nat) (a b : ℝ) (s : Implicit.State σ ω) (s' : Implicit.State σ' ω') (s'' : Implicit.State σ'' ω'') : Prop :=
  ∀ l < N, at3 (s''.vecs .u) l = a • at3 (s.vecs .u) l + b • at3 (s'.vecs .u) l ∧
    at3 (s''.vecs .v) l = a • at3 (s.vecs .v) l + b • at3 (s'.vecs .v) l ∧ at3 s''.a l = a • at3 s.a l + b • at3 s'.a l

/-- The states `st 0, …, st n` are those of a run of implicit dynamics in which every step was solved exactly. -/
def SolvedRun (P : Implicit.Params) (E : QuasiStatic.Env) (T : Implicit.Solver σ ω) (st : Nat → Implicit.State σ ω) (n : Nat) : Prop :=
  (∀ m ≤ n, Implicit.run P E T (st 0) m = .ok (st m)) ∧ ∀ m < n, ∀ t, Implicit.solve P E T (st m) = .ok t → t.norm = 0

end Verif.Conserve
