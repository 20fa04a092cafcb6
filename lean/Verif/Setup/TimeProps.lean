import Verif.Setup.TimeLemmas
import Mathlib.Tactic.NormNum

/-!
# Properties C152 and C153: time-dependent values, and damage models in the course of an analysis
-/

noncomputable section

namespace Verif.Setup

open Verif
open scoped Classical

theorem runExplicit_ok {I : Input} {restarted : Bool} {t0 dt : ℝ} {n : Nat} {s s' : Session}
    (h : runExplicit I restarted t0 dt n s = .ok s') :
    ∃ s1, (if restarted then .ok s else evaluate s t0) = .ok s1 ∧ explicitSteps I t0 dt n 1 t0 s1 = .ok s' := by
  rw [runExplicit] at h
  cases restarted
  · rw [if_neg (by simp)] at h
    obtain ⟨s1, h1, h2⟩ := Outcome.bind_eq_ok.1 h
    exact ⟨s1, by rw [if_neg (by simp)]; exact h1, h2⟩
  · rw [if_pos rfl] at h
    obtain ⟨s1, h1, h2⟩ := Outcome.bind_eq_ok.1 h
    exact ⟨s1, by rw [if_pos rfl]; exact h1, h2⟩

/-! ### C152 -/

/-- C152, partial: in every step of an explicit solver, whatever came before, the force model is evaluated for the time of the
step with critical stretches and friction coefficients that are the values of the user's functions at that time, if the
functions assign their value whenever they are executed.  Before the steps there is one evaluation with whatever is in place.
(Missing: that evaluation and all evaluations of the other solvers, see `C152_implicit_fixed` and `C152_fails`.) -/
theorem C152_steps_partial (I : Input) (ha : AllAssign I) (restarted : Bool) (t0 dt : ℝ) (n : Nat) (s s' : Session)
    (h : runExplicit I restarted t0 dt n s = .ok s') :
    ∃ es : List Evaluation, s'.log = s.log ++ (if restarted then [] else [⟨t0, s.damage, s.friction⟩]) ++ es ∧
      es.length = n ∧ ∀ (i : Nat) (e : Evaluation), es[i]? = some e → e.time = t0 + (i + 1 : ℝ) * dt ∧
        CriticalFollows I e ∧ FrictionFollows I e := by
  obtain ⟨s1, h1, h2⟩ := runExplicit_ok h
  obtain ⟨es, h3, h4, h5⟩ := explicitSteps_log ha n 1 h2
  have hlog : s1.log = s.log ++ (if restarted then [] else [⟨t0, s.damage, s.friction⟩]) := by
    split at h1
    · cases h1
      simp_all
    · next hr =>
      rw [evaluate_ok h1]
      simp [hr]
  refine ⟨es, by rw [h3, hlog], h4, ?_⟩
  intro i e hi
  obtain ⟨a, b, c⟩ := h5 i e hi
  refine ⟨?_, b, c⟩
  rw [a]
  push_cast
  ring

/-- C152, partial: the evaluation before the first step follows the functions as well if the first solver is explicit and
begins at time zero. -/
theorem C152_initial_partial (I : Input) (ha : AllAssign I) (restarted : Bool) (dt : ℝ) (n : Nat) (s : Session)
    (h : analysis I [.explicit restarted 0 dt n] = .ok s) :
    ∀ e ∈ s.log, CriticalFollows I e ∧ FrictionFollows I e := by
  rw [analysis] at h
  obtain ⟨s0, h0, h⟩ := Outcome.bind_eq_ok.1 h
  obtain ⟨s1, h1, h2⟩ := BC.foldlM_cons_ok.1 h
  cases BC.ok_inj h2
  obtain ⟨es, h3, _, h5⟩ := C152_steps_partial I ha restarted 0 dt n s0 s h1
  intro e he
  rw [h3, (start_ok h0).2.2, List.nil_append, List.mem_append] at he
  rcases he with he | he
  · split at he
    · simp at he
    · rw [List.mem_singleton] at he
      exact start_follows ha h0 e (by rw [he]) (by rw [he]) (by rw [he])
  · obtain ⟨i, hi⟩ := List.getElem?_of_mem he
    exact (h5 i e hi).2

/-- C152: in an analysis without explicit solver all evaluations, for whatever time, use the values of time zero. -/
theorem C152_implicit_fixed (I : Input) (ha : AllAssign I) (runs : List (List ℝ)) (s : Session)
    (h : analysis I (runs.map .implicit) = .ok s) :
    s.log.map Evaluation.time = runs.flatten ∧
      ∀ e ∈ s.log, CriticalFollows I { e with time := 0 } ∧ FrictionFollows I { e with time := 0 } := by
  rw [analysis] at h
  obtain ⟨s0, h0, h⟩ := Outcome.bind_eq_ok.1 h
  have key : ∀ (runs : List (List ℝ)) (s1 s : Session), (runs.map SolverRun.implicit).foldlM (runSolver I) s1 = .ok s →
      s.log = s1.log ++ runs.flatten.map fun t => ⟨t, s1.damage, s1.friction⟩ := by
    intro runs
    induction runs with
    | nil =>
      intro s1 s h
      cases BC.ok_inj h
      simp
    | cons ts runs ih =>
      intro s1 s h
      obtain ⟨s2, h1, h2⟩ := BC.foldlM_cons_ok.1 h
      obtain ⟨a, b, c⟩ := runImplicit_log h1
      rw [ih s2 s h2, a, b, c]
      simp
  have hl := key runs s0 s h
  rw [(start_ok h0).2.2, List.nil_append] at hl
  constructor
  · rw [hl, List.map_map]
    exact List.map_id _
  · intro e he
    rw [hl] at he
    obtain ⟨t, _, rfl⟩ := List.mem_map.1 he
    exact start_follows ha h0 _ rfl rfl rfl

/-- The critical stretch `1 + t`. -/
def growing : Input where
  names := ["D"]
  models := fun n => if n = "D" then some ⟨"Time Dependent Critical Stretch", 0, fun t _ => some (1 + t)⟩ else none
  friction := some fun t _ => some t

theorem growing_assigns : AllAssign growing := by
  constructor
  · intro name p hp
    simp only [growing] at hp
    split at hp
    · cases hp
      exact fun _ _ _ => rfl
    · cases hp
  · intro f hf
    simp only [growing, Option.some.injEq] at hf
    subst hf
    exact fun _ _ _ => rfl

theorem growing_complete : Complete growing := by
  constructor
  · intro name hn _
    simp only [growing, List.mem_singleton] at hn
    subst hn
    exact ⟨⟨"Time Dependent Critical Stretch", 0, fun t _ => some (1 + t)⟩, _, by simp [growing], kind_time rfl, fun _ _ => rfl⟩
  · intro f hf
    simp only [growing, Option.some.injEq] at hf
    subst hf
    exact fun _ _ => rfl

theorem growing_not_interface : ¬ UsesInterfaceAware growing := by
  rintro ⟨name, hn, _, p, hp, hm⟩
  simp only [growing, List.mem_singleton] at hn hp
  subst hn
  simp only [if_true, Option.some.injEq] at hp
  subst hp
  simp at hm

/-- C152 is false of the code: an implicit solver at time 1 works with the friction coefficient (and the critical stretch) of
time 0. -/
theorem C152_fails : ¬ ValuesFollow := by
  intro hall
  obtain ⟨s0, h0, hg⟩ := start_defined growing_complete
  obtain ⟨s, h1, _⟩ := runImplicit_defined [1] s0 hg
  have h : analysis growing [.implicit [1]] = .ok s := by
    rw [analysis, h0, Outcome.ok_bind]
    exact BC.foldlM_cons_ok.2 ⟨s, h1, rfl⟩
  have hf := (C152_implicit_fixed growing growing_assigns [[1]] s h).2
  obtain ⟨_, _, hl⟩ := runImplicit_log h1
  rw [(start_ok h0).2.2] at hl
  have hmem : (⟨1, s0.damage, s0.friction⟩ : Evaluation) ∈ s.log := by
    rw [hl]
    simp
  have e1 := (hf _ hmem).2 (fun t _ => some t) rfl
  have e2 := (hall growing [.implicit [1]] s growing_assigns h _ hmem).2 (fun t _ => some t) rfl
  rw [valueAt] at e1 e2
  rw [e1] at e2
  simp at e2

/-- C152: with an explicit solver that does not begin at time zero the evaluation before the first step uses the values of
time zero. -/
theorem C152_initial_fails : ∃ s e, analysis growing [.explicit false 5 1 3] = .ok s ∧ e ∈ s.log ∧ e.time = 5 ∧
    e.friction = some 0 := by
  obtain ⟨s0, h0, hg⟩ := start_defined growing_complete
  obtain ⟨s, h1, _⟩ := explicitSteps_defined growing_complete growing_not_interface 5 1 3 1 5
    { s0 with log := s0.log ++ [⟨5, s0.damage, s0.friction⟩] } hg
  have hr : runExplicit growing false 5 1 3 s0 = .ok s := by
    rw [runExplicit, if_neg (by simp), evaluate_good hg, Outcome.ok_bind]
    exact h1
  have h : analysis growing [.explicit false 5 1 3] = .ok s := by
    rw [analysis, h0, Outcome.ok_bind]
    exact BC.foldlM_cons_ok.2 ⟨s, hr, rfl⟩
  obtain ⟨es, hl, _, _⟩ := C152_steps_partial growing growing_assigns false 5 1 3 s0 s hr
  refine ⟨s, ⟨5, s0.damage, s0.friction⟩, h, by rw [hl]; simp, rfl, ?_⟩
  exact frictionAt_follows (start_ok h0).2.1 (f := fun t _ => some t) rfl fun _ _ _ => rfl

/-- C152: a function that does not assign its value at the current time gives what it gave at the previous time, so the value
depends on the length of the step: a coefficient given only for times before 1. -/
theorem C152_unassigned : ∃ f : Formula,
    evaluateValue f 2 (1 / 2) = .ok 7 ∧ evaluateValue f 2 (3 / 2) = .ok 0 := by
  refine ⟨fun t v => if t < 1 then some 7 else some v, ?_, ?_⟩
  · simp only [evaluateValue]
    rw [if_pos (by norm_num)]
    simp only
    rw [if_neg (by norm_num)]
  · simp only [evaluateValue]
    rw [if_neg (by norm_num)]
    simp only
    rw [if_neg (by norm_num)]

/-- The hypotheses of C152 are met by an explicit analysis of three steps. -/
example : AllAssign growing ∧ ∃ s, analysis growing [.explicit false 0 1 3] = .ok s := by
  obtain ⟨s0, h0, hg⟩ := start_defined growing_complete
  obtain ⟨s, h1, _⟩ := explicitSteps_defined growing_complete growing_not_interface 0 1 3 1 0
    { s0 with log := s0.log ++ [⟨0, s0.damage, s0.friction⟩] } hg
  refine ⟨growing_assigns, s, ?_⟩
  rw [analysis, h0, Outcome.ok_bind]
  refine BC.foldlM_cons_ok.2 ⟨s, ?_, rfl⟩
  rw [runSolver, runExplicit, if_neg (by simp), evaluate_good hg, Outcome.ok_bind]
  exact h1

/-! ### C153 -/

/-- C153, partial: without the interface-aware model every analysis that the input describes completely runs through all its
solvers, as far as the damage and contact models are concerned. -/
theorem C153_usable_partial (I : Input) (hc : Complete I) (hni : ¬ UsesInterfaceAware I) (solvers : List SolverRun) :
    ∃ s, analysis I solvers = .ok s := by
  obtain ⟨s0, h0, hg⟩ := start_defined hc
  have key : ∀ (solvers : List SolverRun) (s1 : Session), (∀ o ∈ s1.damage, Good o) →
      ∃ s, solvers.foldlM (runSolver I) s1 = .ok s := by
    intro solvers
    induction solvers with
    | nil => exact fun s1 _ => ⟨s1, rfl⟩
    | cons r solvers ih =>
      intro s1 hs1
      have : ∃ s2, runSolver I s1 r = .ok s2 ∧ ∀ o ∈ s2.damage, Good o := by
        cases r with
        | implicit ts => exact runImplicit_defined ts s1 hs1
        | explicit restarted t0 dt n =>
          rw [runSolver, runExplicit]
          cases restarted
          · rw [if_neg (by simp), evaluate_good hs1, Outcome.ok_bind]
            exact explicitSteps_defined hc hni t0 dt n 1 t0 _ hs1
          · rw [if_pos rfl, Outcome.ok_bind]
            exact explicitSteps_defined hc hni t0 dt n 1 t0 _ hs1
      obtain ⟨s2, h1, h2⟩ := this
      obtain ⟨s, h3⟩ := ih s2 h2
      exact ⟨s, BC.foldlM_cons_ok.2 ⟨s2, h1, h3⟩⟩
  obtain ⟨s, hs⟩ := key solvers s0 hg
  exact ⟨s, by rw [analysis, h0, Outcome.ok_bind]; exact hs⟩

/-- C153, partial: with any damage models an analysis without explicit solvers runs through. -/
theorem C153_implicit_partial (I : Input) (hc : Complete I) (runs : List (List ℝ)) :
    ∃ s, analysis I (runs.map .implicit) = .ok s := by
  obtain ⟨s0, h0, hg⟩ := start_defined hc
  have key : ∀ (runs : List (List ℝ)) (s1 : Session), (∀ o ∈ s1.damage, Good o) →
      ∃ s, (runs.map SolverRun.implicit).foldlM (runSolver I) s1 = .ok s := by
    intro runs
    induction runs with
    | nil => exact fun s1 _ => ⟨s1, rfl⟩
    | cons ts runs ih =>
      intro s1 hs1
      obtain ⟨s2, h1, h2⟩ := runImplicit_defined ts s1 hs1
      obtain ⟨s, h3⟩ := ih s2 h2
      exact ⟨s, BC.foldlM_cons_ok.2 ⟨s2, h1, h3⟩⟩
  obtain ⟨s, hs⟩ := key runs s0 hg
  exact ⟨s, by rw [analysis, h0, Outcome.ok_bind]; exact hs⟩

/-- C153: with the interface-aware model no explicit step can be made, whatever the input and the history: the models that the
step makes anew have not been told the boundary condition manager. -/
theorem C153_explicit_step (I : Input) (hu : UsesInterfaceAware I) (s s' : Session) (tc tp : ℝ) :
    explicitStep I s tc tp ≠ .ok s' := by
  intro h
  obtain ⟨name, hn, hne, p, hp, hmod⟩ := hu
  rw [explicitStep] at h
  obtain ⟨dm, h1, h⟩ := Outcome.bind_eq_ok.1 h
  obtain ⟨fr, h2, h⟩ := Outcome.bind_eq_ok.1 h
  rw [evaluate] at h
  obtain ⟨⟨⟩, h3, _⟩ := Outcome.bind_eq_ok.1 h
  rw [evaluateModels] at h3
  obtain ⟨us, h4, _⟩ := Outcome.bind_eq_ok.1 h3
  obtain ⟨k, hk⟩ := List.getElem?_of_mem hn
  obtain ⟨o, ho, hs⟩ := (forBlocks_get h1).2 k name hk
  obtain ⟨⟨⟩, _, hus⟩ := (forBlocks_get h4).2 k o ho
  rw [stepDamage, if_neg hne, hp] at hs
  simp only at hs
  rw [createDamage, kind_interface hmod] at hs
  simp only [Outcome.ok_bind] at hs
  rw [evaluateDamage, if_neg (by simp), Outcome.ok_bind] at hs
  cases hs
  simp [usable] at hus

/-- C153: so an analysis with that model and an explicit solver of at least one step does not end properly. -/
theorem C153_explicit_fails (I : Input) (hu : UsesInterfaceAware I) (before after : List SolverRun) (restarted : Bool)
    (t0 dt : ℝ) (n : Nat) (s : Session) : analysis I (before ++ .explicit restarted t0 dt (n + 1) :: after) ≠ .ok s := by
  intro h
  rw [analysis] at h
  obtain ⟨s0, _, h⟩ := Outcome.bind_eq_ok.1 h
  obtain ⟨s1, _, h⟩ := BC.foldlM_append_ok.1 h
  obtain ⟨s2, h, _⟩ := BC.foldlM_cons_ok.1 h
  rw [runSolver] at h
  obtain ⟨s3, _, h⟩ := runExplicit_ok h
  rw [explicitSteps] at h
  obtain ⟨s4, h, _⟩ := Outcome.bind_eq_ok.1 h
  exact C153_explicit_step I hu _ _ _ _ h

/-- An input with the interface-aware model. -/
def interfaceDemo : Input where
  names := ["D"]
  models := fun n => if n = "D" then some ⟨"Interface Aware", 1, fun _ _ => some 0⟩ else none
  friction := none

theorem interfaceDemo_facts : Complete interfaceDemo ∧ UsesInterfaceAware interfaceDemo := by
  refine ⟨⟨?_, ?_⟩, ?_⟩
  · intro name hn _
    simp only [interfaceDemo, List.mem_singleton] at hn
    subst hn
    exact ⟨⟨"Interface Aware", 1, fun _ _ => some 0⟩, _, by simp [interfaceDemo], kind_interface rfl, fun _ _ => rfl⟩
  · intro f hf
    simp [interfaceDemo] at hf
  · exact ⟨"D", by simp [interfaceDemo], by simp, ⟨"Interface Aware", 1, fun _ _ => some 0⟩,
      by simp [interfaceDemo], rfl⟩

/-- C153 is false of the code. -/
theorem C153_fails : ¬ DamageUsable := by
  intro h
  obtain ⟨s, hs⟩ := h interfaceDemo [.explicit false 0 1 1] interfaceDemo_facts.1
  exact C153_explicit_fails interfaceDemo interfaceDemo_facts.2 [] [] false 0 1 0 s hs

/-- The hypotheses of C153 are met. -/
example : Complete growing ∧ ¬ UsesInterfaceAware growing ∧ Complete interfaceDemo ∧ UsesInterfaceAware interfaceDemo :=
  ⟨growing_complete, growing_not_interface, interfaceDemo_facts⟩

end Verif.Setup
