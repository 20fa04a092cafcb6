import Verif.Conserve.NewmarkSpec
import Verif.QuasiStatic.Spec
import Verif.BC.Spec

/-! Statements of C260, about the uniqueness of quasi-static solutions. -/

noncomputable section

namespace Verif.Conserve

open Verif Verif.Neigh Verif.Mech

variable {σ ω : Type}

/-- The record `r` is a completed load step of a quasi-static analysis that begins at the time `t0` with the vectors `vecs`, whatever its load
steps and the data of its blocks are and however many attempts it has made. -/
def Completed (P : QuasiStatic.Params) (E : QuasiStatic.Env) (T : QuasiStatic.Solver σ ω) (t0 : ℝ) (vecs : BC.Vecs)
    (r : QuasiStatic.Record ω) : Prop :=
  ∃ rest N work tf s0 n x, QuasiStatic.start P E (t0 :: rest) vecs N work = .ok (tf, s0) ∧ QuasiStatic.run P E T tf n s0 = .ok x ∧
    r ∈ x.state.log

/-- The analysis evaluates the internal force with the linear LPS material. -/
def Evaluates (X : BC.Ctx) (C : Config) (K mu : ℝ) (S : Lps.Stored) (nbs : List (List Nat)) (ghost : (Nat → ℝ) → Nat → ℝ)
    (T : QuasiStatic.Solver σ ω) : Prop :=
  ∀ N wk dt w wk' f, T.force N wk dt w = .ok (wk', f) →
    ∃ F, LpsForce C K mu S nbs ghost (fun i => w .y i - X.x i) F ∧ ∀ l < nbs.length, at3 f l = F l

/-- In the beginning the points with prescribed displacements have them. -/
def Begins (E : QuasiStatic.Env) (ds : List BC.Definition) (t0 : ℝ) (vecs : BC.Vecs) : Prop :=
  ∀ d ∈ ds, d.type = .prescribedDisplacement → ∀ g l k, BC.lid E.C.owned g = some l → BC.Covers E.C.sets d g k →
    d.value (E.C.x (l * 3)) (E.C.x (l * 3 + 1)) (E.C.x (l * 3 + 2)) t0 = some (vecs .u (l * 3 + k))

end Verif.Conserve
