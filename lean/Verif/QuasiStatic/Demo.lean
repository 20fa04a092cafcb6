import Verif.QuasiStatic.StepLemmas
import Mathlib.Tactic.NormNum

/-!
# Quasi-static load stepping: a small instance used in the examples

One free node of volume one; the internal force vanishes except for load steps of unwanted lengths,
for which it is one in every direction.  No iterations are made, so that an attempt is accepted
exactly if its length is not unwanted.
-/

namespace Verif.QuasiStatic

open Verif Verif.BC Verif.Explicit

theorem normInf_ge (r : Nat → ℝ) : ∀ n i, i < n → |r i| ≤ normInf n r := by
  intro n
  induction n with
  | zero => intro i h; omega
  | succ n ih =>
    intro i h
    unfold normInf
    rw [List.range_succ, List.foldl_append]
    simp only [List.foldl_cons, List.foldl_nil]
    rcases Nat.lt_or_ge i n with h1 | h1
    · exact le_trans (ih i h1) (le_max_left _ _)
    · have : i = n := by omega
      subst this
      exact le_max_right _ _

theorem normInf_zero (n : Nat) : normInf n (fun _ => 0) = 0 := by
  induction n with
  | zero => rfl
  | succ n ih =>
    unfold normInf at ih ⊢
    rw [List.range_succ, List.foldl_append, ih]
    simp

/-- One owned node, no conditions. -/
noncomputable def demoEnv : Env where
  C := { owned := [0], sets := fun _ => none, x := fun _ => 0 }
  cs := {}
  dofs := dispOnly
  volume := fun _ => 1

open Classical in
/-- Unwanted lengths give a unit force. -/
noncomputable def demoSolver (bad : ℝ → Prop) : Solver Unit Unit where
  force := fun _ _ dt _ => .ok ((), if bad dt then fun _ => 1 else fun _ => 0)
  direction := fun _ _ _ _ _ _ => .ok ((), none)
  lineSearch := fun _ _ _ _ _ _ => .ok ((), 1)
  shift := fun _ _ => ((), ())

/-- Absolute tolerance 1/1000, no iterations. -/
noncomputable def demoParams (A : Option Adaptive) : Params where
  tolerance := 1 / 1000
  useAbsoluteTolerance := true
  maxSolverIterations := 0
  disableHeuristics := false
  initPredictor := false
  adaptive := A

theorem demo_zeroed (c : ℝ) : ∃ r, zeroed demoEnv (fun _ => c) = .ok r ∧ r 0 = c ∧
    (c = 0 → r = fun _ => 0) := by
  refine ⟨fun i => ((List.range demoEnv.length).map fun _ => c).getD i 0, rfl, rfl, ?_⟩
  intro hc
  funext i
  subst hc
  rw [List.getD_eq_getElem?_getD, List.getElem?_map]
  cases (List.range demoEnv.length)[i]? <;> rfl

/-- An attempt on the small instance is accepted exactly if its length is not unwanted. -/
theorem demo_attempt (bad : ℝ → Prop) (A : Option Adaptive) (pr : Nat → ℝ) (w : Vecs) (step : Nat)
    (tp tc : ℝ) (hne : tp ≠ tc) :
    ∃ a, attempt (demoParams A) demoEnv (demoSolver bad) () () pr w step tp tc = .ok a ∧
      (accepts a = true ↔ ¬ bad (tc - tp)) := by
  have hd : tc - tp ≠ 0 := sub_ne_zero.mpr (Ne.symm hne)
  by_cases hb : bad (tc - tp)
  · obtain ⟨r, hr, hr0, _⟩ := demo_zeroed 1
    let w2 : Vecs := clearForce (setVec w .deltaU fun _ => 0)
    let w3 : Vecs := setVec (setVec w2 .y fun i => demoEnv.C.x i + w2 .u i + w2 .deltaU i) .v
      fun i => w2 .deltaU i / (tc - tp)
    have h3 : place demoEnv (tc - tp) w2 = .ok w3 := by unfold place; rw [if_neg hd]
    have hext : w3 .externalForce = fun _ => 0 := by
      show setVec _ _ _ _ = _
      rw [setVec_ne _ _ (by decide), setVec_ne _ _ (by decide)]
      funext i
      rfl
    have hbal : balance demoEnv (demoSolver bad) () () (tc - tp) w3 =
        .ok { work := (), force := fun _ => 1, residual := r } := by
      unfold balance demoSolver
      simp only [if_pos hb, hext, Outcome.ok_bind]
      have : (fun i => ((1 : ℝ) + 0) * demoEnv.volume (i / 3)) = fun _ => 1 := by
        funext i; show ((1 : ℝ) + 0) * 1 = 1; ring
      rw [this, hr]
      rfl
    refine ⟨⟨⟨w3, ⟨(), fun _ => 1, r⟩, residualNorm demoEnv r⟩, 1 / 1000 * 1⟩, ?_, ?_⟩
    · unfold attempt
      have e1 : applyBoundary demoEnv.C demoEnv.cs.boundary tc tp (setVec w .deltaU fun _ => 0) =
        .ok (setVec w .deltaU fun _ => 0) := rfl
      have e2 : applyForces demoEnv.C demoEnv.cs.force tc tp (setVec w .deltaU fun _ => 0) = .ok w2 := rfl
      rw [e1]; simp only [Outcome.ok_bind]
      rw [e2]; simp only [Outcome.ok_bind]
      rw [h3]; simp only [Outcome.ok_bind]
      rw [hbal]
      rfl
    · simp only [hb, not_true, iff_false]
      have h20 : (20 : ℝ) ≤ residualNorm demoEnv r := by
        unfold residualNorm
        have h1 := normInf_ge r demoEnv.length 0 (by decide)
        rw [hr0, abs_one] at h1
        have h2 : 0 ≤ norm2 demoEnv.length r := Real.sqrt_nonneg _
        linarith
      unfold accepts
      simp only [Bool.or_eq_true, decide_eq_true_eq, not_or, not_not]
      constructor <;> linarith
  · obtain ⟨r, hr, _, hr0⟩ := demo_zeroed 0
    have hr0 := hr0 rfl
    subst hr0
    let w2 : Vecs := clearForce (setVec w .deltaU fun _ => 0)
    let w3 : Vecs := setVec (setVec w2 .y fun i => demoEnv.C.x i + w2 .u i + w2 .deltaU i) .v
      fun i => w2 .deltaU i / (tc - tp)
    have h3 : place demoEnv (tc - tp) w2 = .ok w3 := by unfold place; rw [if_neg hd]
    have hext : w3 .externalForce = fun _ => 0 := by
      show setVec _ _ _ _ = _
      rw [setVec_ne _ _ (by decide), setVec_ne _ _ (by decide)]
      funext i
      rfl
    have hbal : balance demoEnv (demoSolver bad) () () (tc - tp) w3 =
        .ok { work := (), force := fun _ => 0, residual := fun _ => 0 } := by
      unfold balance demoSolver
      simp only [if_neg hb, hext, Outcome.ok_bind]
      have : (fun i => ((0 : ℝ) + 0) * demoEnv.volume (i / 3)) = fun _ => 0 := by
        funext i; ring
      rw [this, hr]
      rfl
    refine ⟨⟨⟨w3, ⟨(), fun _ => 0, fun _ => 0⟩, residualNorm demoEnv fun _ => 0⟩, 1 / 1000 * 1⟩, ?_, ?_⟩
    · unfold attempt
      have e1 : applyBoundary demoEnv.C demoEnv.cs.boundary tc tp (setVec w .deltaU fun _ => 0) =
        .ok (setVec w .deltaU fun _ => 0) := rfl
      have e2 : applyForces demoEnv.C demoEnv.cs.force tc tp (setVec w .deltaU fun _ => 0) = .ok w2 := rfl
      rw [e1]; simp only [Outcome.ok_bind]
      rw [e2]; simp only [Outcome.ok_bind]
      rw [h3]; simp only [Outcome.ok_bind]
      rw [hbal]
      rfl
    · simp only [hb, not_false_eq_true, iff_true]
      have h0 : residualNorm demoEnv (fun _ => 0) = 0 := by
        unfold residualNorm norm2
        rw [normInf_zero]
        simp
      unfold accepts
      simp only [h0]
      simp

/-- An accepted load step of the small instance. -/
theorem demo_accept (bad : ℝ → Prop) (A : Option Adaptive) (tf : ℝ) (s : State Unit Unit) (tp tc : ℝ)
    (l : List ℝ) (h1 : s.times[s.step]? = some tc) (h2 : oldTime (demoParams A) s = tp)
    (hne : tp ≠ tc) (hb : ¬ bad (tc - tp))
    (hl : rescheduled (demoParams A) tf s.times s.step s.failedInStep tc (tc - tp) = .ok l) :
    ∃ s', pass (demoParams A) demoEnv (demoSolver bad) tf s = .ok (.again s') ∧ s'.times = l ∧
      s'.step = s.step + 1 ∧ oldTime (demoParams A) s' = tc ∧ s'.failedInStep = false ∧
      s'.total = s.total ∧ s'.inStep = 0 ∧ s'.completed = s.completed ++ [tc] := by
  obtain ⟨a, ha, hacc⟩ := demo_attempt bad A s.predictor s.vecs s.step tp tc hne
  refine ⟨commit (demoSolver bad) s l tp tc a, ?_, rfl, rfl, commit_oldTime .., rfl, rfl, rfl, ?_⟩
  · unfold pass
    rw [h1]
    simp only
    rw [h2, ha]
    simp only [Outcome.ok_bind]
    rw [if_pos (hacc.mpr hb), hl]
    rfl
  · unfold State.completed commit
    simp

/-- A rejected load step of the small instance that is cut in half. -/
theorem demo_cut (bad : ℝ → Prop) (A : Adaptive) (tf : ℝ) (s : State Unit Unit) (tp tc : ℝ)
    (h1 : s.times[s.step]? = some tc) (h2 : oldTime (demoParams (some A)) s = tp)
    (hne : tp ≠ tc) (hb : bad (tc - tp)) (hm : (s.total : Int) + 1 ≤ A.maxTotal)
    (hm' : (s.inStep : Int) + 1 ≤ A.maxInOneStep) :
    ∃ s', pass (demoParams (some A)) demoEnv (demoSolver bad) tf s = .ok (.again s') ∧
      s'.times = s.times.insertIdx s.step (tp + (tc - tp) / 2) ∧
      s'.step = s.step ∧ oldTime (demoParams (some A)) s' = tp ∧ s'.failedInStep = true ∧
      s'.total = s.total + 1 ∧ s'.inStep = s.inStep + 1 ∧ s'.completed = s.completed := by
  obtain ⟨a, ha, hacc⟩ := demo_attempt bad (some A) s.predictor s.vecs s.step tp tc hne
  have hrej : accepts a ≠ true := fun h => (hacc.mp h) hb
  have hp : pass (demoParams (some A)) demoEnv (demoSolver bad) tf s =
      .ok (reject (demoParams (some A)) s tp tc a) := by
    unfold pass
    rw [h1]
    simp only
    rw [h2, ha]
    simp only [Outcome.ok_bind]
    rw [if_neg hrej]
  rcases reject_cases (demoParams (some A)) s tp tc a with
    ⟨s', _, _, _, _, _, _, _, _, _, h | ⟨A', hA', ht, hi, hc⟩⟩ |
    ⟨A', s', _, _, _, h3, h4, h5, h6, _, _, _, h7, h8, h9, h10⟩
  · exact absurd h (by simp [demoParams])
  · exfalso
    have : A' = A := by
      have : some A = some A' := hA'
      injection this with this
      exact this.symm
    subst this
    rw [ht, hi] at hc
    push_cast at hc
    omega
  · refine ⟨s', by rw [hp, h3], h4, h5, h6, h8, h9, h10, ?_⟩
    unfold State.completed
    rw [h7]

/-- The start of the small instance. -/
theorem demo_start (A : Option Adaptive) (hA : badLimits (demoParams A) = false) (t0 : ℝ)
    (rest : List ℝ) :
    ∃ s0 : State Unit Unit, start (demoParams A) demoEnv (t0 :: rest) (fun _ _ => 0) () () =
        .ok ((t0 :: rest).getLast (by simp), s0) ∧
      s0.times = t0 :: rest ∧ s0.step = 1 ∧ oldTime (demoParams A) s0 = t0 ∧
      s0.failedInStep = false ∧ s0.total = 0 ∧ s0.inStep = 0 ∧ s0.completed = [] := by
  refine ⟨{ times := t0 :: rest, step := 1, timeCurrent := t0, timePrevious := t0, failed := false,
            failedInStep := false, inStep := 0, total := 0,
            vecs := clearForce (setVec (fun _ _ => 0) .v fun _ => 0),
            predictor := firstPredictor (demoParams A) fun _ _ => 0, N := (), work := (), log := [] },
    ?_, rfl, rfl, ?_, rfl, rfl, rfl, rfl⟩
  · unfold start
    simp only
    rw [if_neg (by rw [hA]; simp)]
    rfl
  · unfold oldTime; simp

theorem demo_finish (bad : ℝ → Prop) (A : Option Adaptive) (tf : ℝ) (n : Nat) (s : State Unit Unit)
    (h : s.times[s.step]? = none) :
    run (demoParams A) demoEnv (demoSolver bad) tf (n + 1) s = .ok (.finished s) := by
  have : pass (demoParams A) demoEnv (demoSolver bad) tf s = .ok (.finished s) := by
    unfold pass; rw [h]
  rw [run, this]
  rfl

end Verif.QuasiStatic
