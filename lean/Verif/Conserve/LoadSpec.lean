import Verif.BC.Props
import Verif.Conserve.MinimumSpec

/-! Statements of C265, about the superposition of quasi-static solutions. -/

noncomputable section

namespace Verif.Conserve

open Verif Verif.Neigh Verif.Mech

variable {ω : Type}

/-- The record `r` is a load step that some quasi-static analysis of a body of the linear LPS material has completed with an exact solve, under the
boundary conditions and body forces `ds`.  The boundary conditions are set up in `E`. -/
structure Exact (C : Config) (K mu : ℝ) (S : Lps.Stored) (nbs : List (List Nat)) (ghost : (Nat → ℝ) → Nat → ℝ) (E : QuasiStatic.Env)
    (ds : List BC.Definition) (r : QuasiStatic.Record ω) : Prop where
  conditions : BC.makeConditions ds = .ok E.cs
  dofs : E.dofs = BC.dispOnly
  nodup : E.C.owned.Nodup
  points : E.C.owned.length = nbs.length
  volumes : ∀ l < nbs.length, E.volume l = C.v l
  solved : r.attempt.tol = 0
  completed : ∃ (σ : Type) (P : QuasiStatic.Params) (T : QuasiStatic.Solver σ ω) (t0 : ℝ) (vecs : BC.Vecs),
    Evaluates E.C C K mu S nbs ghost T ∧ Begins E ds t0 vecs ∧ Completed P E T t0 vecs r

/-- Direction `k` of the point with number `l` has a prescribed displacement. -/
def Fixed (E : QuasiStatic.Env) (l k : Nat) : Prop :=
  ∃ g, BC.lid E.C.owned g = some l ∧ BC.Constrained E.dofs E.C.sets E.cs.boundary g .displacement k

end Verif.Conserve
