import Verif.QuasiStatic.TimeProps
import Verif.QuasiStatic.SolveLemmas

/-!
# Quasi-static load stepping: what is committed (C42, C70)
-/

namespace Verif.QuasiStatic

open Verif Verif.BC Verif.Explicit

variable {σ ω : Type}

/-! ## C42 -/

theorem follows_pass {P : Params} {E : Env} {S : Solver σ ω} {ds : List Definition}
    (hcs : makeConditions ds = .ok E.cs) {tf : ℝ} {c : Accepted σ} {s : State σ ω} {x : Next σ ω}
    (hstep : s.step = s.log.length + 1) (hf : Follows P E S c s.log (s.accepted P))
    (h : pass P E S tf s = .ok x) :
    x.state.step = x.state.log.length + 1 ∧ Follows P E S c x.state.log (x.accepted P) := by
  rcases pass_accepted hcs h with ⟨h1, h2, h3⟩ | ⟨s', r, rfl, h1, h2, h3, h4, h5, h6, h7, h8, h9⟩
  · rw [h1, h2, h3]; exact ⟨hstep, hf⟩
  · refine ⟨?_, ?_⟩
    · show s'.step = s'.log.length + 1
      rw [h1, h2, hstep]; simp
    · show Follows P E S c s'.log (s'.accepted P)
      rw [h1, h9]
      exact .snoc hf s.work s.vecs rfl r (by rw [← hstep]; exact h3) h4 h5 h6 h7 h8

theorem follows_run {P : Params} {E : Env} {S : Solver σ ω} {ds : List Definition}
    (hcs : makeConditions ds = .ok E.cs) {tf : ℝ} {c : Accepted σ} : ∀ (n : Nat) (s : State σ ω)
    (x : Next σ ω), s.step = s.log.length + 1 → Follows P E S c s.log (s.accepted P) →
    run P E S tf n s = .ok x → Follows P E S c x.state.log (x.accepted P) := by
  intro n
  induction n with
  | zero => intro s x _ hf h; rw [← ok_inj h]; exact hf
  | succ n ih =>
    intro s x hs hf h
    obtain ⟨y, hy, ⟨s1, rfl, h⟩ | ⟨_, rfl⟩⟩ := run_succ h
    · obtain ⟨a, b⟩ := follows_pass hcs hs hf hy
      exact ih s1 x a b h
    · exact (follows_pass hcs hs hf hy).2

/-- **C42**: however the attempts of a run succeed and fail, the completed load steps are a
sequence of accepted attempts each of which starts from time, displacement, velocity and state of
the blocks left by the one before it, the first from the given initial ones; and what the run holds
at the end, also after giving up, is what the last of them left. -/
theorem C42_only_accepted (P : Params) (E : Env) (S : Solver σ ω) (ds : List Definition)
    (hcs : makeConditions ds = .ok E.cs) (ts : List ℝ) (t : ℝ) (rest : List ℝ) (hts : ts = t :: rest)
    (vecs : Vecs) (N : σ) (work : ω) (tf : ℝ) (s0 : State σ ω)
    (hst : start P E ts vecs N work = .ok (tf, s0)) (n : Nat) (x : Next σ ω)
    (h : run P E S tf n s0 = .ok x) :
    Follows P E S ⟨t, vecs .u, firstPredictor P vecs, N⟩ x.state.log (x.accepted P) := by
  obtain ⟨t', rest', e, _, h2, h3, h4, _, _, _, _, h5, h6, _, w1, hb, hf⟩ := start_ok hst
  rw [hts, List.cons.injEq] at e
  obtain ⟨rfl, rfl⟩ := e
  refine follows_run hcs n s0 x (by rw [h2, h4]; rfl) ?_ h
  have hu : s0.vecs .u = vecs .u := by
    rw [forces_keep hcs hf (by decide), boundary_keeps_u hcs hb, setVec_ne _ _ (by decide)]
  have : s0.accepted P = ⟨t, vecs .u, firstPredictor P vecs, N⟩ := by
    unfold State.accepted
    rw [h3, hu, h6, h5]
  rw [h4, this]
  exact .nil _

/-- **C42**, one attempt: an attempt that is not accepted leaves displacement, predictor, state N
of the blocks, the completed load steps and the time the next attempt starts from. -/
theorem C42_rejected_changes_nothing (P : Params) (E : Env) (S : Solver σ ω) (ds : List Definition)
    (hcs : makeConditions ds = .ok E.cs) (tf : ℝ) (s s' : State σ ω) (tc : ℝ) (a : Attempt ω)
    (htc : s.times[s.step]? = some tc)
    (ha : attempt P E S s.N s.work s.predictor s.vecs s.step (oldTime P s) tc = .ok a)
    (hrej : accepts a = false) (h : pass P E S tf s = .ok (.again s')) :
    s'.vecs .u = s.vecs .u ∧ s'.predictor = s.predictor ∧ s'.N = s.N ∧ s'.log = s.log ∧
      oldTime P s' = oldTime P s := by
  rcases pass_accepted hcs h with ⟨h1, _, h3⟩ | ⟨s1, r, e, h1, _, h3, h4, _⟩
  · have h3' : s'.accepted P = s.accepted P := h3
    unfold State.accepted at h3'
    injection h3' with e1 e2 e3 e4
    exact ⟨e2, e3, e4, h1, e1⟩
  · exfalso
    rcases pass_cases h with ⟨e1, _⟩ | ⟨tc', a', l, e1, e2, e3, _⟩ | ⟨tc', a', e1, e2, e3, e4⟩
    · rw [e1] at htc; exact absurd htc (by simp)
    · rw [e1] at htc
      injection htc with htc
      subst htc
      rw [e2] at ha
      have := ok_inj ha
      subst this
      rw [e3] at hrej; exact absurd hrej (by simp)
    · injection e with e
      subst e
      rcases reject_cases P s (oldTime P s) tc' a' with ⟨s2, q, _⟩ |
        ⟨_, s2, _, _, _, q, _, _, _, _, _, _, q2, _⟩
      · rw [q] at e4; exact absurd e4 (by simp)
      · rw [q] at e4
        injection e4 with e4
        subst e4
        rw [q2] at h1
        have := congrArg List.length h1
        simp at this

theorem follows_mem {P : Params} {E : Env} {S : Solver σ ω} {c c' : Accepted σ}
    {log : List (Record ω)} (h : Follows P E S c log c') : ∀ r ∈ log,
    ∃ (N : σ) (work : ω) (pr : Nat → ℝ) (vecs : Vecs) (step : Nat),
      attempt P E S N work pr vecs step r.previous r.time = .ok r.attempt ∧
      accepts r.attempt = true ∧ (∀ i, r.vecs .u i = vecs .u i + r.attempt.iter.vecs .deltaU i) ∧
      (∀ t, t ≠ .u → r.vecs t = r.attempt.iter.vecs t) := by
  induction h with
  | nil => intro r hr; exact absurd hr (by simp)
  | snoc h work vecs hu r ha hacc hprev hvu hv _ ih =>
    intro r' hr'
    rcases List.mem_append.mp hr' with hr' | hr'
    · exact ih r' hr'
    · simp only [List.mem_cons, List.not_mem_nil, or_false] at hr'
      subst hr'
      exact ⟨_, work, _, vecs, _, by rw [hprev]; exact ha, hacc, by rw [hu]; exact hvu, hv⟩

/-- **C42**: what is committed is in equilibrium.  The positions of a completed load step are those
of its displacement; the internal force, evaluated at these positions, and the body force balance
at every degree of freedom that is not constrained, up to a number that is at most the tolerance of
that load step or below a hundred times the tolerance - unless the tolerance exceeds 1e48, in which
case a failure of the linear solver goes unnoticed. -/
theorem C42_equilibrium (P : Params) (E : Env) (S : Solver σ ω) (ds : List Definition)
    (hcs : makeConditions ds = .ok E.cs) (hm : E.dofs = dispOnly) (ts : List ℝ) (vecs : Vecs) (N : σ)
    (work : ω) (tf : ℝ) (s0 : State σ ω)
    (hst : start P E ts vecs N work = .ok (tf, s0)) (n : Nat) (x : Next σ ω)
    (h : run P E S tf n s0 = .ok x) (r : Record ω) (hr : r ∈ x.state.log) :
    (∀ i, r.vecs .y i = E.C.x i + r.vecs .u i) ∧
    ∃ (N' : σ) (wk wk' : ω) (w : Vecs) (f : Nat → ℝ) (bound : ℝ),
      S.force N' wk (r.time - r.previous) w = .ok (wk', f) ∧
      w .y = r.vecs .y ∧ w .v = r.vecs .v ∧ w .externalForce = r.vecs .externalForce ∧
      (∀ g l k, lid E.C.owned g = some l → k < 3 →
        ¬ Constrained E.dofs E.C.sets E.cs.boundary g .displacement k →
        21 * |(f (l * 3 + k) + r.vecs .externalForce (l * 3 + k)) * E.volume l| ≤ bound) ∧
      (bound ≤ r.attempt.tol ∨ bound < 100 * r.attempt.tol ∨ 10 ^ 48 < r.attempt.tol) := by
  obtain ⟨t, rest, hts, _⟩ := start_ok hst
  have hfol := C42_only_accepted P E S ds hcs ts t rest hts vecs N work tf s0 hst n x h
  obtain ⟨N', work', pr, vecs', step, ha, hacc, hu, hv⟩ := follows_mem hfol r hr
  obtain ⟨w1, w2, h1, h2, hne, hs⟩ := attempt_ok (K := fun _ => False) (fun _ _ _ _ h => h.elim) ha
  have hku := attempt_keeps_u hcs ha
  refine ⟨fun i => ?_, ?_⟩
  · rw [hv .y (by decide), hs.y i, hu i, hku]; ring
  · obtain ⟨wk, b, hb, hf, hres, hnorm⟩ := hs.bal
    unfold balance at hb
    obtain ⟨p, hp, hb⟩ := Outcome.bind_eq_ok.mp hb
    obtain ⟨z, hz, hb⟩ := Outcome.bind_eq_ok.mp hb
    have e := ok_inj hb
    subst e
    refine ⟨N', wk, p.1, r.attempt.iter.vecs, p.2, residualNorm E z, hp, ?_, ?_, ?_, ?_, ?_⟩
    · rw [hv .y (by decide)]
    · rw [hv .v (by decide)]
    · rw [hv .externalForce (by decide)]
    · intro g l k hl hk hfree
      have e1 := (zeroed_exact hcs hm hz hl hk).2 hfree
      have hlt : l * 3 + k < E.length := by
        obtain ⟨q1, q2⟩ := lid_some.mp hl
        have := List.idxOf_lt_length_of_mem q1
        unfold Env.length
        omega
      have e2 := residualNorm_ge E z _ hlt
      have hdiv : (l * 3 + k) / 3 = l := by omega
      rw [hdiv] at e1
      rw [hv .externalForce (by decide), ← e1]
      exact e2
    · unfold accepts at hacc
      simp only [Bool.or_eq_true, decide_eq_true_eq, not_lt] at hacc
      rcases hnorm with ⟨hn, _⟩ | hn
      · rw [hn] at hacc
        exact hacc.elim .inl fun h => .inr (.inl h)
      · rw [hn] at hacc
        refine .inr (.inr ?_)
        rcases hacc with hacc | hacc
        · have : (10 : ℝ) ^ 48 < 10 ^ 50 := by norm_num
          linarith
        · have : (10 : ℝ) ^ 50 = 100 * 10 ^ 48 := by norm_num
          rw [this] at hacc
          linarith

/-- **C42**, the body force of a completed load step is that of its time. -/
theorem C42_body_force (P : Params) (E : Env) (S : Solver σ ω) (ds : List Definition)
    (hcs : makeConditions ds = .ok E.cs) (ts : List ℝ) (vecs : Vecs) (N : σ)
    (work : ω) (tf : ℝ) (s0 : State σ ω)
    (hst : start P E ts vecs N work = .ok (tf, s0)) (n : Nat) (x : Next σ ω)
    (h : run P E S tf n s0 = .ok x) (r : Record ω) (hr : r ∈ x.state.log)
    (g l k : Nat) (hl : lid E.C.owned g = some l) (hk : k < 3) :
    ((∀ d ∈ ds, d.type = .bodyForce → ¬ Covers E.C.sets d g k) →
      r.vecs .externalForce (l * 3 + k) = 0) ∧
    (∀ pre d post, ds = pre ++ d :: post → d.type = .bodyForce → Covers E.C.sets d g k →
      (∀ d' ∈ post, d'.type = .bodyForce → ¬ Covers E.C.sets d' g k) →
      d.value (E.C.x (l * 3)) (E.C.x (l * 3 + 1)) (E.C.x (l * 3 + 2)) r.time =
        some (r.vecs .externalForce (l * 3 + k))) := by
  obtain ⟨t, rest, hts, _⟩ := start_ok hst
  have hfol := C42_only_accepted P E S ds hcs ts t rest hts vecs N work tf s0 hst n x h
  obtain ⟨N', work', pr, vecs', step, ha, hacc, hu, hv⟩ := follows_mem hfol r hr
  obtain ⟨w1, w2, h1, h2, hne, hs⟩ := attempt_ok (K := fun _ => False) (fun _ _ _ _ h => h.elim) ha
  rw [hv .externalForce (by decide), hs.ext]
  exact (body_force_last_wins_partial E.C ds E.cs hcs _ _ _ _ h2).1 g l k hl hk

theorem follows_end {P : Params} {E : Env} {S : Solver σ ω} {c c' : Accepted σ}
    {log : List (Record ω)} (h : Follows P E S c log c') :
    match log.getLast? with
    | none => c' = c
    | some r => c'.time = r.time ∧ c'.u = r.vecs .u ∧ c'.predictor = r.vecs .v := by
  cases h with
  | nil => rfl
  | snoc => simp

/-- **C42**, the explicit run that may follow after giving up starts at the end of the last completed
load step, with its displacement and velocity. -/
theorem C42_handover (P : Params) (E : Env) (S : Solver σ ω) (ds : List Definition)
    (hcs : makeConditions ds = .ok E.cs) (ts : List ℝ) (vecs : Vecs) (N : σ)
    (work : ω) (tf : ℝ) (s0 : State σ ω)
    (hst : start P E ts vecs N work = .ok (tf, s0)) (n : Nat) (s : State σ ω)
    (h : run P E S tf n s0 = .ok (.gaveUp s)) (r : Record ω) (hr : s.log.getLast? = some r) :
    handoverTimes tf s = (r.time, tf) ∧
      (∀ i, handover E s .u i = r.vecs .u i ∧ handover E s .y i = E.C.x i + r.vecs .u i ∧
        handover E s .v i = r.vecs .v i) := by
  obtain ⟨t, rest, hts, _⟩ := start_ok hst
  have hfol := C42_only_accepted P E S ds hcs ts t rest hts vecs N work tf s0 hst n _ h
  have he := follows_end hfol
  have hr' : (Next.gaveUp s).state.log.getLast? = some r := hr
  rw [hr'] at he
  obtain ⟨e1, e2, e3⟩ := he
  have e1 : s.timePrevious = r.time := e1
  have e2 : s.vecs .u = r.vecs .u := e2
  have e3 : s.predictor = r.vecs .v := e3
  refine ⟨by unfold handoverTimes; rw [e1], fun i => ⟨?_, ?_, ?_⟩⟩
  · unfold handover
    rw [setVec_ne _ _ (by decide), setVec_ne _ _ (by decide), e2]
  · unfold handover
    rw [setVec_ne _ _ (by decide)]
    simp only [setVec, if_true]
    rw [e2]
  · unfold handover
    simp only [setVec, if_true]
    rw [e3]

/-! ## C70 -/

/-- **C70**: at the end of every completed load step, whatever attempts failed before, the
displacement of a node with a prescribed displacement has the prescribed value at that time,
provided it has it at the beginning. -/
theorem C70_follows (P : Params) (E : Env) (S : Solver σ ω) (ds : List Definition)
    (hcs : makeConditions ds = .ok E.cs) (hm : E.dofs = dispOnly) (ts : List ℝ) (t : ℝ)
    (rest : List ℝ) (hts : ts = t :: rest) (vecs : Vecs) (N : σ)
    (work : ω) (tf : ℝ) (s0 : State σ ω)
    (hst : start P E ts vecs N work = .ok (tf, s0)) (n : Nat) (x : Next σ ω)
    (h : run P E S tf n s0 = .ok x)
    (pre post : List Definition) (d : Definition) (hds : ds = pre ++ d :: post)
    (hd : d.type = .prescribedDisplacement) (g l k : Nat) (hl : lid E.C.owned g = some l)
    (hcov : Covers E.C.sets d g k)
    (hpost : ∀ d' ∈ post, d'.type = .prescribedDisplacement → ¬ Covers E.C.sets d' g k)
    (h0 : d.value (E.C.x (l * 3)) (E.C.x (l * 3 + 1)) (E.C.x (l * 3 + 2)) t =
      some (vecs .u (l * 3 + k))) :
    (∀ r ∈ x.state.log, d.value (E.C.x (l * 3)) (E.C.x (l * 3 + 1)) (E.C.x (l * 3 + 2)) r.time =
      some (r.vecs .u (l * 3 + k))) ∧
    d.value (E.C.x (l * 3)) (E.C.x (l * 3 + 1)) (E.C.x (l * 3 + 2)) (x.accepted P).time =
      some ((x.accepted P).u (l * 3 + k)) := by
  have hfol := C42_only_accepted P E S ds hcs ts t rest hts vecs N work tf s0 hst n x h
  generalize x.state.log = log at hfol ⊢
  generalize x.accepted P = c' at hfol ⊢
  generalize hc : (⟨t, vecs .u, firstPredictor P vecs, N⟩ : Accepted σ) = c at hfol
  induction hfol with
  | nil => subst hc; exact ⟨fun r hr => absurd hr (by simp), h0⟩
  | snoc h' work' vecs' hu r ha hacc hprev hvu hv _ ih =>
    obtain ⟨i1, i2⟩ := ih
    obtain ⟨cur, prev, e1, e2, e3⟩ := attempt_increment hcs hm hds hd hl hcov hpost ha
    rw [i2] at e2
    injection e2 with e2
    have key : d.value (E.C.x (l * 3)) (E.C.x (l * 3 + 1)) (E.C.x (l * 3 + 2)) r.time =
        some (r.vecs .u (l * 3 + k)) := by
      rw [hvu, e3, hu, ← e2, ite_self, e1]
      congr 1
      ring
    refine ⟨?_, key⟩
    intro r' hr'
    rcases List.mem_append.mp hr' with hr' | hr'
    · exact i1 r' hr'
    · simp only [List.mem_cons, List.not_mem_nil, or_false] at hr'
      subst hr'
      exact key

/-- **C70** without agreement at the beginning: one load step over which the prescribed value does
not change suffices to bring the node onto it. -/
theorem C70_recovers (P : Params) (E : Env) (S : Solver σ ω) (ds : List Definition)
    (hcs : makeConditions ds = .ok E.cs) (hm : E.dofs = dispOnly) (ts : List ℝ) (vecs : Vecs) (N : σ)
    (work : ω) (tf : ℝ) (s0 : State σ ω)
    (hst : start P E ts vecs N work = .ok (tf, s0)) (n : Nat) (x : Next σ ω)
    (h : run P E S tf n s0 = .ok x)
    (pre post : List Definition) (d : Definition) (hds : ds = pre ++ d :: post)
    (hd : d.type = .prescribedDisplacement) (g l k : Nat) (hl : lid E.C.owned g = some l)
    (hcov : Covers E.C.sets d g k)
    (hpost : ∀ d' ∈ post, d'.type = .prescribedDisplacement → ¬ Covers E.C.sets d' g k)
    (r : Record ω) (hr : r ∈ x.state.log)
    (hflat : d.value (E.C.x (l * 3)) (E.C.x (l * 3 + 1)) (E.C.x (l * 3 + 2)) r.previous =
      d.value (E.C.x (l * 3)) (E.C.x (l * 3 + 1)) (E.C.x (l * 3 + 2)) r.time) :
    d.value (E.C.x (l * 3)) (E.C.x (l * 3 + 1)) (E.C.x (l * 3 + 2)) r.time =
      some (r.vecs .u (l * 3 + k)) := by
  obtain ⟨t, rest, hts, _⟩ := start_ok hst
  have hfol := C42_only_accepted P E S ds hcs ts t rest hts vecs N work tf s0 hst n x h
  obtain ⟨N', work', pr, vecs', step, ha, hacc, hu, hv⟩ := follows_mem hfol r hr
  obtain ⟨cur, prev, e1, e2, e3⟩ := attempt_increment hcs hm hds hd hl hcov hpost ha
  rw [hflat, e1] at e2
  injection e2 with e2
  rw [hu, e3, ← e2, sub_self, if_pos rfl, e1]
  congr 1
  ring

/-- Velocity of a completed load step: the change of displacement over its length. -/
theorem C70_velocity (P : Params) (E : Env) (S : Solver σ ω) (c c' : Accepted σ) (log : List (Record ω)) (r : Record ω)
    (h : Follows P E S c (log ++ [r]) c') :
    ∃ c1, Follows P E S c log c1 ∧ r.previous = c1.time ∧ r.time ≠ r.previous ∧
      ∀ i, r.vecs .v i = (r.vecs .u i - c1.u i) / (r.time - r.previous) := by
  generalize hl : log ++ [r] = l at h
  cases h with
  | nil => exact absurd hl (by simp)
  | snoc h' work vecs hu r' ha hacc hprev hvu hv hwork =>
    obtain ⟨rfl, e2⟩ := List.append_inj' hl rfl
    injection e2 with e2
    subst e2
    obtain ⟨w1, w2, _, _, hne, hs⟩ := attempt_ok (K := fun _ => False) (fun _ _ _ _ h => h.elim) ha
    refine ⟨_, h', hprev, fun e => hne (by rw [e, hprev, sub_self]), fun i => ?_⟩
    rw [hv .v (by decide), hs.v i, hvu i, hprev]
    congr 1
    ring

/-! ## An instance with a prescribed displacement -/

/-- The displacement `2 t` prescribed in the x direction of the only node. -/
noncomputable def pullX : Definition where
  type := .prescribedDisplacement
  nodeSet := "A"
  coord := 0
  value := fun _ _ _ t => some (2 * t)

/-- One owned node, pulled. -/
noncomputable def pulledEnv : Env where
  C := { owned := [0], sets := fun s => if s = "A" then some [0] else none, x := fun _ => 0 }
  cs := { boundary := [obj pullX .deltaU (.increment 1 0 false), obj pullX .v (.increment 0 1 false)] }
  dofs := dispOnly
  volume := fun _ => 1

theorem pulled_conditions : makeConditions [pullX] = .ok pulledEnv.cs := by
  show addDefinition {} pullX = _
  unfold addDefinition
  simp [pullX, construct, pulledEnv, obj, dim, Outcome.ok_bind]

/-- An attempt on the pulled node succeeds and is accepted. -/
theorem pulled_attempt (w : Vecs) (step : Nat) (pr : Nat → ℝ) (tp tc : ℝ) (hne : tp ≠ tc) :
    ∃ a, attempt (demoParams none) pulledEnv (demoSolver fun _ => False) () () pr w step tp tc = .ok a ∧
      accepts a = true := by
  have hd : tc - tp ≠ 0 := sub_ne_zero.mpr (Ne.symm hne)
  have hreg : Regular pulledEnv.C pulledEnv.cs.boundary := by
    intro c hc
    simp only [pulledEnv, List.mem_cons, List.not_mem_nil, or_false] at hc
    rcases hc with rfl | rfl <;>
      exact ⟨⟨[0], rfl⟩, fun _ _ _ _ => rfl, fun p q h => by simp [obj] at h⟩
  obtain ⟨w1, h1⟩ := applyAll_defined hreg tc tp (setVec w .deltaU fun _ => 0)
  have h2 : applyForces pulledEnv.C pulledEnv.cs.force tc tp w1 = .ok (clearForce w1) := rfl
  let w2 : Vecs := clearForce w1
  let w3 : Vecs := setVec (setVec w2 .y fun i => pulledEnv.C.x i + w2 .u i + w2 .deltaU i) .v
    fun i => w2 .deltaU i / (tc - tp)
  have h3 : place pulledEnv (tc - tp) w2 = .ok w3 := by unfold place; rw [if_neg hd]
  have hext : w3 .externalForce = fun _ => 0 := by
    show setVec _ _ _ _ = _
    rw [setVec_ne _ _ (by decide), setVec_ne _ _ (by decide)]
    funext i
    rfl
  have hz : zeroed pulledEnv (fun _ => 0) = .ok fun _ => 0 := by
    have : zeroed pulledEnv (fun _ => 0) = .ok fun i => ([0, 0, 0] : List ℝ).getD i 0 := rfl
    rw [this]
    congr 1
    funext i
    match i with
    | 0 => rfl
    | 1 => rfl
    | 2 => rfl
    | _ + 3 => rfl
  have hbal : balance pulledEnv (demoSolver fun _ => False) () () (tc - tp) w3 =
      .ok { work := (), force := fun _ => 0, residual := fun _ => 0 } := by
    unfold balance demoSolver
    simp only [if_false, hext, Outcome.ok_bind]
    have : (fun i => ((0 : ℝ) + 0) * pulledEnv.volume (i / 3)) = fun _ => 0 := by funext i; ring
    rw [this, hz]
    rfl
  refine ⟨⟨⟨w3, ⟨(), fun _ => 0, fun _ => 0⟩, residualNorm pulledEnv fun _ => 0⟩, 1 / 1000 * 1⟩, ?_, ?_⟩
  · unfold attempt
    have h1' : applyBoundary pulledEnv.C pulledEnv.cs.boundary tc tp (setVec w .deltaU fun _ => 0) =
      .ok w1 := h1
    rw [h1']; simp only [Outcome.ok_bind]
    rw [h2]; simp only [Outcome.ok_bind]
    rw [h3]; simp only [Outcome.ok_bind]
    rw [hbal]
    rfl
  · have h0 : residualNorm pulledEnv (fun _ => 0) = 0 := by
      unfold residualNorm norm2
      rw [normInf_zero]
      simp
    unfold accepts
    simp only [h0]
    simp

/-- One load step from 0 to 1 of the pulled node; the hypotheses of C42 and C70 are met and its
displacement at the end is 2. -/
theorem pulled_run : ∃ s0 s r, start (demoParams none) pulledEnv [0, 1] (fun _ _ => 0) () () = .ok (1, s0) ∧
    run (demoParams none) pulledEnv (demoSolver fun _ => False) 1 1 s0 = .ok (.again s) ∧
    s.log = [r] ∧ r.time = 1 := by
  let s0 : State Unit Unit :=
    { times := [0, 1], step := 1, timeCurrent := 0, timePrevious := 0, failed := false,
      failedInStep := false, inStep := 0, total := 0,
      vecs := clearForce (setVec (fun _ _ => 0) .v fun _ => 0),
      predictor := firstPredictor (demoParams none) fun _ _ => 0, N := (), work := (), log := [] }
  have hb : applyBoundary pulledEnv.C pulledEnv.cs.boundary 0 0 (setVec (fun _ _ => 0) .v fun _ => 0) =
      .ok (setVec (fun _ _ => 0) .v fun _ => 0) := by
    unfold applyBoundary
    have : ∀ c ∈ pulledEnv.cs.boundary, ∀ s, apply pulledEnv.C 0 0 s c = .ok s := by
      intro c hc s
      simp only [pulledEnv, List.mem_cons, List.not_mem_nil, or_false] at hc
      rcases hc with rfl | rfl <;>
        (unfold apply skips; simp [obj])
    show List.foldlM _ _ [_, _] = _
    rw [List.foldlM_cons, this _ (by simp [pulledEnv])]
    simp only [Outcome.ok_bind]
    rw [List.foldlM_cons, this _ (by simp [pulledEnv])]
    rfl
  have hst : start (demoParams none) pulledEnv [0, 1] (fun _ _ => 0) () () = .ok (1, s0) := by
    unfold start
    simp only
    rw [if_neg (by simp [badLimits, demoParams]), hb]
    rfl
  obtain ⟨a, ha, hacc⟩ := pulled_attempt s0.vecs 1 s0.predictor 0 1 (by norm_num)
  refine ⟨s0, commit (demoSolver fun _ => False) s0 [0, 1] 0 1 a, _, hst, ?_, rfl, rfl⟩
  have hp : pass (demoParams none) pulledEnv (demoSolver fun _ => False) 1 s0 =
      .ok (.again (commit (demoSolver fun _ => False) s0 [0, 1] 0 1 a)) := by
    unfold pass
    show (do
      let a ← attempt (demoParams none) pulledEnv (demoSolver fun _ => False) () () s0.predictor s0.vecs 1 0 1
      _ : Outcome (Next Unit Unit)) = _
    rw [ha]
    simp only [Outcome.ok_bind]
    rw [if_pos hacc]
    rfl
  rw [run, hp]
  rfl

example : ∃ s0 s r, start (demoParams none) pulledEnv [0, 1] (fun _ _ => 0) () () = .ok (1, s0) ∧
    run (demoParams none) pulledEnv (demoSolver fun _ => False) 1 1 s0 = .ok (.again s) ∧
    r ∈ s.log ∧ r.vecs .u 0 = 2 ∧ r.vecs .y 0 = 2 := by
  obtain ⟨s0, s, r, h1, h2, h3, h4⟩ := pulled_run
  have hr : r ∈ (Next.again s).state.log := by show r ∈ s.log; rw [h3]; simp
  have hu : r.vecs .u 0 = 2 := by
    have := (C70_follows _ _ _ [pullX] pulled_conditions rfl _ 0 _ rfl _ _ _ _ _ h1 _ _ h2 [] [] pullX rfl
      rfl 0 0 0 rfl ⟨rfl, [0], rfl, by simp⟩ (by simp) (by simp [pullX])).1 r hr
    rw [h4] at this
    have e : some (2 * 1 : ℝ) = some (r.vecs .u 0) := this
    injection e with e
    rw [← e]; norm_num
  refine ⟨s0, s, r, h1, h2, hr, hu, ?_⟩
  have hy := (C42_equilibrium _ _ _ [pullX] pulled_conditions rfl _ _ _ _ _ _ h1 _ _ h2 r hr).1 0
  rw [hy, hu]
  show (0 : ℝ) + 2 = 2
  norm_num

end Verif.QuasiStatic
