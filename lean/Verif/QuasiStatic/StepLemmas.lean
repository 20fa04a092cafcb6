import Verif.QuasiStatic.Lemmas

/-!
# Quasi-static load stepping: invariants of the loop
-/

namespace Verif.QuasiStatic

open Verif Verif.BC Verif.Explicit

variable {σ ω : Type} {P : Params} {E : Env} {S : Solver σ ω} {tf t0 : ℝ}

theorem start_ok {ts : List ℝ} {vecs : Vecs} {N : σ} {work : ω} {s0 : State σ ω}
    (h : start P E ts vecs N work = .ok (tf, s0)) :
    ∃ t rest, ts = t :: rest ∧ s0.times = ts ∧ s0.step = 1 ∧ oldTime P s0 = t ∧ s0.log = [] ∧
      s0.failedInStep = false ∧ s0.inStep = 0 ∧ s0.total = 0 ∧ ts.getLast? = some tf ∧
      s0.N = N ∧ s0.predictor = firstPredictor P vecs ∧ badLimits P = false ∧
      ∃ w1, applyBoundary E.C E.cs.boundary t t (setVec vecs .v fun _ => 0) = .ok w1 ∧
        applyForces E.C E.cs.force t t w1 = .ok s0.vecs := by
  unfold start at h
  split at h
  · exact absurd h (by simp)
  · rename_i t rest
    split at h
    · exact absurd h (by simp)
    · rename_i hb
      obtain ⟨w1, hw1, h⟩ := Outcome.bind_eq_ok.mp h
      obtain ⟨w2, hw2, h⟩ := Outcome.bind_eq_ok.mp h
      have e := ok_inj h
      rw [Prod.mk.injEq] at e
      obtain ⟨e1, rfl⟩ := e
      refine ⟨t, rest, rfl, rfl, rfl, ?_, rfl, rfl, rfl, rfl, ?_, rfl, rfl, by simpa using hb,
        w1, hw1, hw2⟩
      · unfold oldTime; simp
      · rw [← e1]; exact List.getLast?_eq_getLast_of_ne_nil _

theorem start_lined {ts : List ℝ} {vecs : Vecs} {N : σ} {work : ω} {s0 : State σ ω} {t : ℝ}
    {rest : List ℝ} (h : start P E ts vecs N work = .ok (tf, s0)) (hts : ts = t :: rest) :
    Lined P t s0 := by
  obtain ⟨t', rest', e, h1, h2, h3, h4, _⟩ := start_ok h
  rw [hts, List.cons.injEq] at e
  obtain ⟨rfl, rfl⟩ := e
  exact ⟨[], rest, by rw [h1, h3, hts]; rfl, h2, by rw [h3]; unfold State.completed; rw [h4]; rfl⟩

/-- A pass that gives up leaves list, log and step, so `Lined` survives in this form. -/
def Ordered (t0 : ℝ) (s : State σ ω) : Prop := (t0 :: s.completed) <+: s.times

theorem Lined.ordered {s : State σ ω} (h : Lined P t0 s) : Ordered t0 s := by
  obtain ⟨pre, rest, h1, _, h3⟩ := h
  exact ⟨rest, by rw [← h3, h1]; simp⟩

/-- One pass keeps the list a chain for a relation that survives cutting and extension. -/
theorem pass_chain {R : ℝ → ℝ → Prop} (hmid : ∀ a b, R a b → R a (a + (b - a) / 2) ∧ R (a + (b - a) / 2) b)
    (hext : ∀ A a b r, P.adaptive = some A → A.reduceAll = true → R a b →
      extension b (b - a) tf = .ok r → (b :: r).IsChain R)
    {s : State σ ω} {x : Next σ ω} (hl : Lined P t0 s) (hc : s.times.IsChain R)
    (h : pass P E S tf s = .ok x) : x.state.times.IsChain R := by
  rcases pass_times hl h with ⟨rfl, _⟩ | ⟨s', rfl, h1, _⟩ |
      ⟨A, s', pre, tc, rest, _, rfl, _, _, _, h2, h3, _⟩ |
      ⟨s', pre, tc, rest, rest', rfl, _, h2, _, _, _, h3, _, h4⟩
  · exact hc
  · show s'.times.IsChain R
    rw [h1]; exact hc
  · show s'.times.IsChain R
    rw [h2, List.isChain_append_cons_cons] at hc
    rw [h3, List.isChain_append_cons_cons, List.isChain_cons_cons]
    exact ⟨hc.1, (hmid _ _ hc.2.1).1, (hmid _ _ hc.2.1).2, hc.2.2⟩
  · show s'.times.IsChain R
    rw [h2, List.isChain_append_cons_cons] at hc
    rw [h3, List.isChain_append_cons_cons]
    refine ⟨hc.1, hc.2.1, ?_⟩
    rcases h4 with ⟨rfl, _⟩ | ⟨A, hA, hr, h4⟩
    · exact hc.2.2
    · exact hext A _ _ _ hA hr hc.2.1 h4

theorem lt_mid (a b : ℝ) (h : a < b) : a < a + (b - a) / 2 ∧ a + (b - a) / 2 < b := by
  constructor <;> linarith

theorem fits_mid (a b : ℝ) (h : a < b ∧ Fits tf a b) :
    (a < a + (b - a) / 2 ∧ Fits tf a (a + (b - a) / 2)) ∧
    (a + (b - a) / 2 < b ∧ Fits tf (a + (b - a) / 2) b) := by
  obtain ⟨hlt, m, hm⟩ := h
  obtain ⟨h1, h2⟩ := lt_mid a b hlt
  refine ⟨⟨h1, 2 * m + 1, ?_⟩, h2, 2 * m, ?_⟩
  · push_cast; linarith
  · push_cast; linarith

/-- The list is lined up at the end of a pass unless the loop is left. -/
theorem pass_lined {s : State σ ω} {x : Next σ ω} (hl : Lined P t0 s)
    (h : pass P E S tf s = .ok x) : Ordered t0 x.state ∧ ∀ s', x = .again s' → Lined P t0 s' := by
  rcases pass_times hl h with ⟨rfl, _⟩ | ⟨s', rfl, h1, h2, _⟩ |
      ⟨A, s', pre, tc, rest, _, rfl, h1, _⟩ | ⟨s', pre, tc, rest, rest', rfl, h1, _⟩
  · exact ⟨hl.ordered, by simp⟩
  · refine ⟨?_, by simp⟩
    show Ordered t0 s'
    have := hl.ordered
    unfold Ordered State.completed at this ⊢
    rw [h1, h2]; exact this
  · exact ⟨h1.ordered, fun s'' e => by injection e with e; subst e; exact h1⟩
  · exact ⟨h1.ordered, fun s'' e => by injection e with e; subst e; exact h1⟩

/-- Induction over runs for properties that need the list lined up. -/
theorem run_lined (Inv : State σ ω → Prop)
    (hpass : ∀ s x, Lined P t0 s → Inv s → pass P E S tf s = .ok x → Inv x.state) : ∀ (n : Nat)
    (s : State σ ω) (x : Next σ ω), Lined P t0 s → Inv s → run P E S tf n s = .ok x →
    Inv x.state ∧ Ordered t0 x.state ∧ ∀ s', (x = .again s' ∨ x = .finished s') → Lined P t0 s' := by
  intro n
  induction n with
  | zero =>
    intro s x hl hs h
    have := ok_inj h
    subst this
    exact ⟨hs, hl.ordered, fun s' e => by
      rcases e with e | e
      · injection e with e; subst e; exact hl
      · exact absurd e (by simp)⟩
  | succ n ih =>
    intro s x hl hs h
    obtain ⟨y, hy, h | ⟨hna, h⟩⟩ := run_succ h
    · obtain ⟨s', rfl, h⟩ := h
      exact ih s' x ((pass_lined hl hy).2 s' rfl) (hpass s _ hl hs hy) h
    · subst h
      refine ⟨hpass s _ hl hs hy, (pass_lined hl hy).1, ?_⟩
      intro s' e
      rcases e with e | e
      · exact (pass_lined hl hy).2 s' e
      · rcases pass_times hl hy with ⟨h1, _⟩ | ⟨s1, h1, _⟩ | ⟨_, s1, _, _, _, _, h1, _⟩ |
          ⟨s1, _, _, _, _, h1, _⟩ <;> rw [h1] at e
        · injection e with e; subst e; exact hl
        all_goals exact absurd e (by simp)

/-- The last entry of the list stays as long as nothing is appended. -/
theorem pass_last (hR : NoReduce P) {s : State σ ω} {x : Next σ ω} (hl : Lined P t0 s)
    (h : pass P E S tf s = .ok x) : x.state.times.getLast? = s.times.getLast? := by
  rcases pass_times hl h with ⟨rfl, _⟩ | ⟨s', rfl, h1, _⟩ |
      ⟨A, s', pre, tc, rest, _, rfl, _, _, _, h2, h3, _⟩ |
      ⟨s', pre, tc, rest, rest', rfl, _, h2, _, _, _, h3, _, h4⟩
  · rfl
  · show s'.times.getLast? = _; rw [h1]
  · show s'.times.getLast? = _
    rw [h2, h3]; simp [List.getLast?_append]
  · show s'.times.getLast? = _
    rcases h4 with ⟨rfl, _⟩ | ⟨A, hA, hr, _⟩
    · rw [h2, h3]
    · rw [hR A hA] at hr; exact absurd hr (by simp)

theorem pass_last_fits {s : State σ ω} {x : Next σ ω} (hl : Lined P t0 s)
    (hc : s.times.IsChain fun a b => a < b ∧ Fits tf a b) (hlast : s.times.getLast? = some tf)
    (h : pass P E S tf s = .ok x) : x.state.times.getLast? = some tf := by
  rcases pass_times hl h with ⟨rfl, _⟩ | ⟨s', rfl, h1, _⟩ |
      ⟨A, s', pre, tc, rest, _, rfl, _, _, _, h2, h3, _⟩ |
      ⟨s', pre, tc, rest, rest', rfl, _, h2, _, _, _, h3, _, h4⟩
  · exact hlast
  · show s'.times.getLast? = _; rw [h1]; exact hlast
  · show s'.times.getLast? = _
    rw [h2] at hlast
    rw [h3, ← hlast]; simp [List.getLast?_append]
  · show s'.times.getLast? = _
    rcases h4 with ⟨rfl, _⟩ | ⟨A, hA, hr, h4⟩
    · rw [h3, ← h2]; exact hlast
    · rw [h2, List.isChain_append_cons_cons] at hc
      rw [h3]
      have := (ext_fits hc.2.1.1 hc.2.1.2 h4).2
      rw [show pre ++ oldTime P s :: tc :: rest' = (pre ++ [oldTime P s]) ++ (tc :: rest') by simp,
        List.getLast?_append_of_ne_nil _ (by simp)]
      exact this

/-- Beyond the requested final time there is at most the last entry, or the load step that is being
repeated. -/
def Covering (P : Params) (tf : ℝ) (s : State σ ω) : Prop :=
  (∃ init l, s.times = init ++ [l] ∧ tf ≤ l ∧ (s.failedInStep = false → ∀ a ∈ init, a < tf)) ∧
  (s.failedInStep = true → oldTime P s < tf ∧ ∃ tc, s.times[s.step]? = some tc)

theorem init_mem {init rest pre : List ℝ} {l tp tc : ℝ}
    (h : init ++ [l] = pre ++ tp :: tc :: rest) : tp ∈ init := by
  have h1 : (pre ++ tp :: tc :: rest).dropLast = init := by rw [← h]; simp
  rw [← h1, List.dropLast_append_of_ne_nil (by simp), List.dropLast_cons_of_ne_nil (by simp)]
  simp

theorem pass_covering {A : Adaptive} (hA : P.adaptive = some A) (hR : A.reduceAll = true)
    {s s' : State σ ω} (hl : Lined P t0 s) (hc : s.times.IsChain (· < ·)) (hcov : Covering P tf s)
    (h : pass P E S tf s = .ok (.again s')) : Covering P tf s' := by
  obtain ⟨⟨init, l, hi, htl, hall⟩, hfail⟩ := hcov
  have hold : ∀ pre tc rest, s.times = pre ++ oldTime P s :: tc :: rest → oldTime P s < tf := by
    intro pre tc rest he
    cases hf : s.failedInStep with
    | true => exact (hfail hf).1
    | false => exact hall hf _ (init_mem (hi.symm.trans he))
  rcases pass_times hl h with ⟨h1, _⟩ | ⟨s1, h1, _⟩ |
      ⟨A', s1, pre, tc, rest, _, h1, _, _, h5, h2, h3, h6, h7, h8⟩ |
      ⟨s1, pre, tc, rest, rest', h1, _, h2, h6, h7, h8, h3, h9, h4⟩
  · exact absurd h1 (by simp)
  · exact absurd h1 (by simp)
  · injection h1 with h1; subst h1
    have hlast : (tc :: rest).getLast? = some l := by
      have := congrArg List.getLast? h2
      rw [hi] at this
      simpa [List.getLast?_append] using this.symm
    obtain ⟨i1, hi1⟩ := List.getLast?_eq_some_iff.mp hlast
    refine ⟨⟨pre ++ oldTime P s :: (oldTime P s + (tc - oldTime P s) / 2) :: i1, l, ?_, htl, ?_⟩, ?_⟩
    · rw [h3, hi1]; simp
    · intro hf; rw [h8] at hf; exact absurd hf (by simp)
    · intro _
      rw [h5]
      refine ⟨hold pre tc rest h2, oldTime P s + (tc - oldTime P s) / 2, ?_⟩
      rw [h3, h7, h6, List.getElem?_append_right (by omega)]
      simp
  · injection h1 with h1; subst h1
    rcases h4 with ⟨rfl, hno⟩ | ⟨A', hA', hr', h4⟩
    · have hf : s.failedInStep = false := by
        rcases hno with h | h
        · exact h
        · rw [h A hA] at hR; exact absurd hR (by simp)
      refine ⟨⟨init, l, by rw [h3, ← h2, hi], htl, fun _ => hall hf⟩, ?_⟩
      intro hf'; rw [h9] at hf'; exact absurd hf' (by simp)
    · have hlt : oldTime P s < tc := by
        rw [h2, List.isChain_append_cons_cons] at hc
        exact hc.2.1
      obtain ⟨i1, l1, e1, e2, e3⟩ := ext_covers hlt h4
      refine ⟨⟨pre ++ oldTime P s :: i1, l1, ?_, e2, ?_⟩, ?_⟩
      · rw [h3, e1]; simp
      · intro _ a ha
        have ho := hold pre tc rest h2
        rw [List.mem_append, List.mem_cons] at ha
        rcases ha with ha | rfl | ha
        · rw [h2, List.isChain_iff_pairwise, List.pairwise_append] at hc
          exact lt_trans (hc.2.2 a ha _ (List.mem_cons_self ..)) ho
        · exact ho
        · exact e3 a ha
      · intro hf'; rw [h9] at hf'; exact absurd hf' (by simp)

theorem run_covering {A : Adaptive} (hA : P.adaptive = some A) (hR : A.reduceAll = true) :
    ∀ (n : Nat) (s s' : State σ ω), Lined P t0 s → s.times.IsChain (· < ·) → Covering P tf s →
    run P E S tf n s = .ok (.finished s') → Covering P tf s' := by
  intro n
  induction n with
  | zero => intro s s' _ _ _ h; exact absurd (ok_inj h) (by simp)
  | succ n ih =>
    intro s s' hl hc hcov h
    obtain ⟨y, hy, ⟨s1, rfl, h⟩ | ⟨_, h⟩⟩ := run_succ h
    · refine ih s1 s' ((pass_lined hl hy).2 s1 rfl) ?_ (pass_covering hA hR hl hc hcov hy) h
      exact pass_chain lt_mid (fun A a b r _ _ hab hr => ext_chain hab hr) hl hc hy
    · subst h
      rcases pass_times hl hy with ⟨h1, _⟩ | ⟨s1, h1, _⟩ | ⟨_, s1, _, _, _, _, h1, _⟩ |
          ⟨s1, _, _, _, _, h1, _⟩
      · injection h1 with h1; subst h1; exact hcov
      all_goals exact absurd h1 (by simp)

/-! ## Termination -/

/-- Remaining failures, counting the possibility to reschedule. -/
def budget (A : Adaptive) (s : State σ ω) : Nat :=
  2 * (A.maxTotal - s.total).toNat + if s.failedInStep then 1 else 0

theorem pass_measure {A : Adaptive} (hA : P.adaptive = some A) {s s' : State σ ω}
    (h : pass P E S tf s = .ok (.again s')) :
    budget A s' < budget A s ∨
      (budget A s' = budget A s ∧ s'.times.length - s'.step < s.times.length - s.step) := by
  rcases pass_cases h with ⟨_, e⟩ | ⟨tc, a, l, e, _, _, hr, hx⟩ | ⟨tc, a, e, _, _, hx⟩
  · exact absurd e (by simp)
  · injection hx with hx
    have hf' : s'.failedInStep = false := by rw [hx]; rfl
    have ht' : s'.total = s.total := by rw [hx]; rfl
    cases hf : s.failedInStep with
    | true =>
      left
      unfold budget
      rw [hf, hf', ht']
      simp
    | false =>
      right
      refine ⟨by unfold budget; rw [hf, hf', ht'], ?_⟩
      have hl : l = s.times := by
        unfold rescheduled at hr
        rw [hA] at hr
        simp only at hr
        rw [if_neg (by rw [hf]; simp)] at hr
        exact (ok_inj hr).symm
      have h1 : s'.times = s.times := by rw [hx]; exact hl
      have h2 : s'.step = s.step + 1 := by rw [hx]; rfl
      have h3 : s.step < s.times.length := (List.getElem?_eq_some_iff.mp e).1
      rw [h1, h2]
      omega
  · left
    rcases reject_cases P s (oldTime P s) tc a with ⟨s1, h1, _⟩ |
      ⟨A', s1, hA', hm, _, h1, _, _, _, _, _, _, _, hf, ht, _⟩
    · rw [h1] at hx; exact absurd hx (by simp)
    · rw [h1] at hx
      injection hx with hx
      subst hx
      rw [hA] at hA'
      injection hA' with hA'
      subst hA'
      unfold budget
      rw [hf, ht, if_pos rfl]
      push_cast
      split <;> omega

theorem run_again {n : Nat} {s s1 : State σ ω} (h : pass P E S tf s = .ok (.again s1)) :
    run P E S tf (n + 1) s = run P E S tf n s1 := by
  rw [run, h]
  rfl

theorem run_stop {n : Nat} {s : State σ ω} (h : ∀ s1, pass P E S tf s ≠ .ok (.again s1)) :
    ∀ s', run P E S tf (n + 1) s ≠ .ok (.again s') := by
  intro s' hr
  obtain ⟨y, hy, ⟨s1, rfl, _⟩ | ⟨h1, h2⟩⟩ := run_succ hr
  · exact h s1 hy
  · exact h1 s' h2.symm

/-- The state after exactly `n` passes that did not end the loop. -/
theorem run_count : ∀ (n : Nat) (s s' : State σ ω), run P E S tf n s = .ok (.again s') →
    s.log.length + s.total + n = s'.log.length + s'.total := by
  intro n
  induction n with
  | zero =>
    intro s s' h
    have := ok_inj h
    injection this with this
    subst this; rfl
  | succ n ih =>
    intro s s' h
    obtain ⟨y, hy, ⟨s1, rfl, h⟩ | ⟨h1, h2⟩⟩ := run_succ h
    · have := ih s1 s' h
      rcases pass_cases hy with ⟨_, e⟩ | ⟨tc, a, l, e, _, _, hr, hx⟩ | ⟨tc, a, e, _, _, hx⟩
      · exact absurd e (by simp)
      · injection hx with hx
        have e1 : s1.log.length = s.log.length + 1 := by rw [hx]; simp [commit]
        have e2 : s1.total = s.total := by rw [hx]; rfl
        omega
      · rcases reject_cases P s (oldTime P s) tc a with ⟨s2, h1, _⟩ |
          ⟨A', s2, _, _, _, h1, _, _, _, _, _, _, hlog, _, ht, _⟩
        · rw [h1] at hx; exact absurd hx (by simp)
        · rw [h1] at hx
          injection hx with hx
          subst hx
          rw [hlog, ht] at this
          omega
    · exact absurd h2.symm (h1 s')

end Verif.QuasiStatic
