import Verif.Assoc.PlasticModel
import Verif.Assoc.Spec
import Verif.Correspondence.StressSpec

/-!
# The perfectly plastic bond-associated correspondence material (specification)
-/

noncomputable section

namespace Verif.Assoc

open Verif Verif.Neigh Verif.Mech Verif.Tensor

/-- The states in which an analysis calls the perfectly plastic material: bond damage of the evaluation before, what the
bond-associated material keeps for bonds and for points, plastic strains. -/
inductive PlasticRun (B : Body) (D : Decompose) (order : Nat) (bulk shear yield : ℝ) (ghost : Nat → ℝ) (nbs : List (List Nat))
    (A : (Nat → ℝ) → Harm → Prop) : (Nat → ℝ) → State → Shown → Strains → Prop where
  | start {s : State} : initialState B D order ghost nbs.length (encode nbs) = .ok s →
      PlasticRun B D order bulk shear yield ghost nbs A (fun _ => 0) s shownStart strainsStart
  | step {d : Nat → ℝ} {s : State} {o : Shown} {e : Strains} {dt : ℝ} {H : Harm} {u y v : Nat → V3} {g : Ghosts}
      {q : PlasticResult} :
      PlasticRun B D order bulk shear yield ghost nbs A d s o e → A d H →
      perfectEvaluation B D order bulk shear yield dt H u y v g s o e nbs.length (encode nbs) = .ok q →
      PlasticRun B D order bulk shear yield ghost nbs A H.bondDamage (q.result.next s) q.written.kept q.strains
  | again {d : Nat → ℝ} {s : State} {o : Shown} {e : Strains} {dt : ℝ} {H : Harm} {u y v : Nat → V3} {g : Ghosts}
      {q : PlasticResult} :
      PlasticRun B D order bulk shear yield ghost nbs A d s o e → A d H →
      perfectEvaluation B D order bulk shear yield dt H u y v g s o e nbs.length (encode nbs) = .ok q →
      PlasticRun B D order bulk shear yield ghost nbs A H.bondDamage (q.result.trial s) o e

/-- One step of perfect plasticity with strain increment `E`, from stress `S` and plastic strain `e` to `S'` and `e'`: elastic
within the yield surface, otherwise returned along the deviatoric stress; what is recorded is what the names say. -/
structure Returned (bulk shear yield : ℝ) (E S S' : Matrix (Fin 3) (Fin 3) ℝ) (e e' mises triaxiality : ℝ) : Prop where
  elastic : Correspondence.vonMises (S + Correspondence.hooke bulk shear E) ≤ yield →
    S' = S + Correspondence.hooke bulk shear E ∧ e' = e
  bound : Correspondence.vonMises S' ≤ yield
  surface : yield < Correspondence.vonMises (S + Correspondence.hooke bulk shear E) →
    1 / 10 ^ 20 ≤ Correspondence.norm9 (Correspondence.dev (S + Correspondence.hooke bulk shear E)) → Correspondence.vonMises S' = yield
  mean : Correspondence.mean S' = Correspondence.mean S + bulk * E.trace
  direction : ∃ c : ℝ, 0 ≤ c ∧ c ≤ 1 ∧
    Correspondence.dev S' = c • Correspondence.dev (S + Correspondence.hooke bulk shear E)
  grows : e ≤ e'
  recorded : mises = Correspondence.vonMises S'
  ratio : triaxiality = Correspondence.mean S' / max (1 / 10 ^ 20) (Correspondence.vonMises S')

end Verif.Assoc
