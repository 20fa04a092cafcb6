import Verif.Newton.DampProps

/-!
# C227: the matrices of Newton's iteration
-/

namespace Verif.Newton

open Verif

variable {S V κ : Type}

/-- What is known about the matrix kept: once damped, it is the tangent of a state visited less than eight iterations
ago, damped once, and no iteration in between was due to compute the tangent. -/
structure Kept (P : Params) (Q : Problem S V κ) (past : List (Nat × S)) (iteration : Nat) (l : Lin κ) : Prop where
  plain : l.damped = false → P.disableHeuristics = false → iteration ≤ 51
  damped : l.damped = true → P.disableHeuristics = false ∧ ∃ m s, (m, s) ∈ past ∧ m < iteration ∧
    DampedOnce P Q s l.tangent ∧ ∀ k, m < k → k < iteration → refreshes true k = false

theorem refreshes_mod (k : Nat) : refreshes true k = true ↔ k % 8 = 3 := by
  unfold refreshes numPure between
  simp only [Bool.not_true, Bool.false_or, beq_iff_eq, Nat.cast_ofNat]
  constructor
  · intro h
    have := Int.dvd_of_tmod_eq_zero h
    omega
  · intro h
    exact Int.tmod_eq_zero_of_dvd (by omega)

/-- Within eight iterations one is due. -/
theorem due {m i : Nat} (h : ∀ k, m < k → k < i → refreshes true k = false) : i ≤ m + 8 := by
  by_contra hc
  push Not at hc
  have hk : ∃ k, m < k ∧ k ≤ m + 8 ∧ k % 8 = 3 := ⟨m + 1 + (10 - m % 8) % 8, by omega, by omega, by omega⟩
  obtain ⟨k, h1, h2, h3⟩ := hk
  have := h k h1 (by omega)
  rw [(refreshes_mod k).2 h3] at this
  exact absurd this (by decide)

/-- The matrix of a linear system is the tangent of the current state, or a tangent damped once. -/
def Fits (P : Params) (Q : Problem S V κ) (past : List (Nat × S)) (e : Solve S V) : Prop :=
  Plain Q e.state e.matrix ∨
    (P.disableHeuristics = false ∧
      ∃ m s, (m, s) ∈ past ∧ m ≤ e.iteration ∧ e.iteration < m + 8 ∧ DampedOnce P Q s e.matrix)

theorem Fits.mono {P : Params} {Q : Problem S V κ} {past past' : List (Nat × S)} {e : Solve S V}
    (h : Fits P Q past e) (hs : ∀ a ∈ past, a ∈ past') : Fits P Q past' e :=
  h.imp id fun ⟨h0, m, s, h1, h2⟩ => ⟨h0, m, s, hs _ h1, h2⟩

/-- The matrix of the current iteration. -/
structure Ready (P : Params) (Q : Problem S V κ) (past : List (Nat × S)) (i : Nat) (s : S) (l : Lin κ) : Prop where
  plain : l.damped = false → Plain Q s l.tangent ∧ (P.disableHeuristics = false → i ≤ 50)
  damped : l.damped = true → P.disableHeuristics = false ∧ ∃ m s', (m, s') ∈ (i, s) :: past ∧ m ≤ i ∧
      DampedOnce P Q s' l.tangent ∧ ∀ k, m < k → k < i + 1 → refreshes true k = false

/-- After preparation the matrix is right for this iteration. -/
theorem prepare_kept {P : Params} {Q : Problem S V κ} {past : List (Nat × S)} {i : Nat} {s : S} {l l' : Lin κ}
    (hk : Kept P Q past i l) (h : prepare P Q i s l = .ok l') : Ready P Q past i s l' := by
  unfold prepare at h
  generalize hd : (l.damped || (decide (numPure < i) && !P.disableHeuristics)) = d at h
  simp only at h
  by_cases hr : refreshes d i = true
  · rw [if_pos hr] at h
    obtain ⟨A, hA, h⟩ := Outcome.bind_eq_ok.1 h
    have := Outcome.ok.inj h; subst this
    cases d with
    | false =>
      refine ⟨fun _ => ⟨hA, fun hh => ?_⟩, fun h => absurd h (by simp)⟩
      simp [numPure, hh] at hd
      exact Nat.not_lt.1 (of_decide_eq_false hd.2)
    | true =>
      refine ⟨fun h => absurd h (by simp), fun _ => ⟨?_, i, s, by simp, le_refl _, ⟨A, hA, rfl⟩, fun k h1 h2 => by omega⟩⟩
      by_cases hb : l.damped = true
      · exact (hk.damped hb).1
      · simp [hb] at hd
        exact hd.2
  · rw [if_neg hr] at h
    have := Outcome.ok.inj h; subst this
    have hdt : d = true := by
      cases d with
      | true => rfl
      | false => exact absurd rfl hr
    subst hdt
    refine ⟨fun h => absurd h (by simp), fun _ => ?_⟩
    by_cases hb : l.damped = true
    · obtain ⟨h0, m, s', h1, h2, h3, h4⟩ := hk.damped hb
      refine ⟨h0, m, s', List.mem_cons_of_mem _ h1, by omega, h3, fun k hk1 hk2 => ?_⟩
      rcases Nat.lt_or_ge k i with hlt | hge
      · exact h4 k hk1 hlt
      · have : k = i := by omega
        subst this; simpa using hr
    · have hb' : l.damped = false := by simpa using hb
      simp [hb', numPure] at hd
      have := hk.plain hb' hd.2
      have h50 : 50 < i := of_decide_eq_true hd.1
      have h51 : i = 51 := by omega
      subst h51
      exact absurd ((refreshes_mod 51).2 (by decide)) hr

/-- Both attempts fit, and what is kept is right for the next iteration. -/
theorem solveTwice_kept {P : Params} {Q : Problem S V κ} {past : List (Nat × S)} {i : Nat} {s : S} {l : Lin κ}
    {p : Lin κ × List (Solve S V) × Option V} (hk : Ready P Q past i s l) (h : solveTwice P Q i s l = .ok p) :
    Kept P Q ((i, s) :: past) (i + 1) p.1 ∧ ∀ e ∈ p.2.1, Fits P Q ((i, s) :: past) e ∧ e.iteration = i ∧ e.state = s := by
  unfold solveTwice at h
  obtain ⟨q, hq, h⟩ := Outcome.bind_eq_ok.1 h
  have hfit : ∀ a, Fits P Q ((i, s) :: past) ⟨i, s, l.tangent, a⟩ := fun a => by
    by_cases hb : l.damped = true
    · obtain ⟨h0, m, s', h1, h2, h3, h4⟩ := hk.damped hb
      exact .inr ⟨h0, m, s', h1, h2, by have := due h4; show i < _; omega, h3⟩
    · exact .inl (hk.plain (by simpa using hb)).1
  simp only at h
  by_cases hr : (q.2.isNone && !P.disableHeuristics) = true
  · rw [if_pos hr] at h
    have hh : P.disableHeuristics = false := by
      rw [Bool.and_eq_true] at hr; simpa using hr.2
    obtain ⟨q', hq', h⟩ := Outcome.bind_eq_ok.1 h
    have := Outcome.ok.inj h; subst this
    have hd : ∃ m s', (m, s') ∈ (i, s) :: past ∧ m ≤ i ∧
        DampedOnce P Q s' (if l.damped = true then l.tangent else damp P.scale P.shift l.tangent) ∧
        ∀ k, m < k → k < i + 1 → refreshes true k = false := by
      by_cases hb : l.damped = true
      · rw [if_pos hb]; exact (hk.damped hb).2
      · rw [if_neg hb]
        exact ⟨i, s, by simp, le_refl _, ⟨_, (hk.plain (by simpa using hb)).1, rfl⟩, fun k h1 h2 => by omega⟩
    obtain ⟨m, s', h1, h2, h3, h4⟩ := hd
    refine ⟨⟨fun h => absurd h (by simp), fun _ => ⟨hh, m, s', h1, by omega, h3, h4⟩⟩, ?_⟩
    intro e he
    rcases List.mem_cons.1 he with rfl | he
    · exact ⟨hfit _, rfl, rfl⟩
    · rw [List.mem_singleton] at he
      subst he
      exact ⟨.inr ⟨hh, m, s', h1, h2, by have := due h4; show i < _; omega, h3⟩, rfl, rfl⟩
  · rw [if_neg hr] at h
    have := Outcome.ok.inj h; subst this
    refine ⟨⟨fun hb hh => by have := (hk.plain hb).2 hh; omega, fun hb => ?_⟩, ?_⟩
    · obtain ⟨h0, m, s', h1, h2, h3, h4⟩ := hk.damped hb
      exact ⟨h0, m, s', h1, by omega, h3, h4⟩
    · intro e he
      rw [List.mem_singleton] at he
      subst he
      exact ⟨hfit _, rfl, rfl⟩

theorem propose_kept {P : Params} {Q : Problem S V κ} {past : List (Nat × S)} {i : Nat} {s : S} {l : Lin κ}
    {p : Lin κ × List (Solve S V) × Option V} (hk : Kept P Q past i l) (h : propose P Q i s l = .ok p) :
    Kept P Q ((i, s) :: past) (i + 1) p.1 ∧ ∀ e ∈ p.2.1, Fits P Q ((i, s) :: past) e ∧ e.iteration = i ∧ e.state = s := by
  unfold propose at h
  by_cases h1 : i = 1 ∧ P.predict = true ∧ P.disableHeuristics = false
  · rw [if_pos h1] at h
    have := Outcome.ok.inj h; subst this
    refine ⟨⟨fun hb hh => by omega, fun hb => ?_⟩, by simp⟩
    obtain ⟨h0, m, s', h2, h3, h4, h5⟩ := hk.damped hb
    refine ⟨h0, m, s', List.mem_cons_of_mem _ h2, by omega, h4, fun k hk1 hk2 => ?_⟩
    rcases Nat.lt_or_ge k i with hlt | hge
    · exact h5 k hk1 hlt
    · have : k = 1 := by omega
      subst this
      cases hc : refreshes true 1 with
      | false => rfl
      | true => exact absurd ((refreshes_mod 1).1 hc) (by decide)
  · rw [if_neg h1] at h
    obtain ⟨l', hl', h⟩ := Outcome.bind_eq_ok.1 h
    exact solveTwice_kept (prepare_kept hk hl') h

theorem iterate_kept {P : Params} {Q : Problem S V κ} {tol : ℝ} :
    ∀ (fuel i : Nat) (s : S) (l : Lin κ) (past : List (Nat × S)) (r : Result S V), Kept P Q past i l →
      iterate P Q tol fuel i s l = .ok r →
      ∀ e ∈ r.solves, Fits P Q (past ++ r.visited) e ∧ (e.iteration, e.state) ∈ r.visited := by
  intro fuel
  induction fuel with
  | zero =>
    intro i s l past r hk h e he
    unfold iterate at h
    have := Outcome.ok.inj h; subst this
    simp at he
  | succ fuel ih =>
    intro i s l past r hk h e he
    unfold iterate at h
    by_cases ht : tol < Q.norm s
    · rw [if_pos ht] at h
      obtain ⟨p, hp, h⟩ := Outcome.bind_eq_ok.1 h
      obtain ⟨hk', hf⟩ := propose_kept hk hp
      split at h
      · have := Outcome.ok.inj h; subst this
        obtain ⟨h1, h2, h3⟩ := hf e he
        refine ⟨h1.mono fun a ha => ?_, by simp [h2, h3]⟩
        rcases List.mem_cons.1 ha with rfl | ha
        · simp
        · simp [ha]
      · rename_i x hx
        obtain ⟨s', hs', h⟩ := Outcome.bind_eq_ok.1 h
        obtain ⟨r', hr', h⟩ := Outcome.bind_eq_ok.1 h
        have := Outcome.ok.inj h; subst this
        rcases List.mem_append.1 he with he | he
        · obtain ⟨h1, h2, h3⟩ := hf e he
          refine ⟨h1.mono fun a ha => ?_, by simp [h2, h3]⟩
          rcases List.mem_cons.1 ha with rfl | ha
          · simp
          · simp [ha]
        · obtain ⟨h1, h2⟩ := ih (i + 1) s' p.1 ((i, s) :: past) r' hk' hr' e he
          refine ⟨h1.mono fun a ha => ?_, List.mem_cons_of_mem _ h2⟩
          simp only [List.mem_append, List.mem_cons] at ha ⊢
          tauto
    · rw [if_neg ht] at h
      have := Outcome.ok.inj h; subst this
      simp at he

/-- **C227** (matrices): in every execution of the nonlinear iteration, the matrix of every linear system is the tangent
of the current state, or the tangent of a state visited less than eight iterations ago that was damped exactly once;
the latter never happens if heuristics are disabled. -/
theorem C227_matrices {P : Params} {Q : Problem S V κ} {tol : ℝ} {n : Nat} {s : S} {left : Mat} {solver : κ}
    {r : Result S V} (h : solveStep P Q tol n s left solver = .ok r) :
    ∀ e ∈ r.solves, (e.iteration, e.state) ∈ r.visited ∧
      (Plain Q e.state e.matrix ∨ (P.disableHeuristics = false ∧
        ∃ m s', (m, s') ∈ r.visited ∧ m ≤ e.iteration ∧ e.iteration < m + 8 ∧ DampedOnce P Q s' e.matrix)) := by
  intro e he
  have hk : Kept P Q [] 1 (⟨false, left, solver⟩ : Lin κ) := ⟨fun _ _ => by omega, fun h => absurd h (by simp)⟩
  obtain ⟨h1, h2⟩ := iterate_kept n 1 s _ [] r hk h e he
  exact ⟨h2, by simpa [Fits] using h1⟩

theorem propose_iteration {P : Params} {Q : Problem S V κ} {i : Nat} {s : S} {l : Lin κ}
    {p : Lin κ × List (Solve S V) × Option V} (hl : l.damped = false) (h : propose P Q i s l = .ok p) :
    (∀ e ∈ p.2.1, Plain Q e.state e.matrix ∨ 50 < i ∨ ∃ e' ∈ p.2.1, e'.answer = none) ∧
    (∀ e ∈ p.2.1, e.iteration = i) ∧ (p.1.damped = true → 50 < i ∨ ∃ e' ∈ p.2.1, e'.answer = none) := by
  unfold propose at h
  by_cases h1 : i = 1 ∧ P.predict = true ∧ P.disableHeuristics = false
  · rw [if_pos h1] at h
    have := Outcome.ok.inj h; subst this
    exact ⟨by simp, by simp, fun hd => absurd (hl.symm.trans hd) (by simp)⟩
  · rw [if_neg h1] at h
    obtain ⟨l', hl', h⟩ := Outcome.bind_eq_ok.1 h
    have hprep : (l'.damped = true → 50 < i) ∧ (l'.damped = false → Plain Q s l'.tangent) := by
      unfold prepare at hl'
      rw [hl] at hl'
      simp only [Bool.false_or] at hl'
      by_cases hd : (decide (numPure < i) && !P.disableHeuristics) = true
      · have h50 : 50 < i := by
          rw [Bool.and_eq_true] at hd; simpa [numPure] using of_decide_eq_true hd.1
        rw [hd] at hl'
        refine ⟨fun _ => h50, fun hf => ?_⟩
        split at hl'
        · obtain ⟨A, hA, e⟩ := Outcome.bind_eq_ok.1 hl'
          have := Outcome.ok.inj e; subst this
          simp at hf
        · have := Outcome.ok.inj hl'; subst this
          simp at hf
      · have hd' : (decide (numPure < i) && !P.disableHeuristics) = false := by simpa using hd
        rw [hd', if_pos (show refreshes false i = true from rfl)] at hl'
        obtain ⟨A, hA, e⟩ := Outcome.bind_eq_ok.1 hl'
        have := Outcome.ok.inj e; subst this
        exact ⟨fun hf => absurd hf (by simp), fun _ => hA⟩
    have hor : 50 < i ∨ Plain Q s l'.tangent := by
      cases hd : l'.damped with
      | true => exact .inl (hprep.1 hd)
      | false => exact .inr (hprep.2 hd)
    unfold solveTwice at h
    obtain ⟨q, hq, h⟩ := Outcome.bind_eq_ok.1 h
    simp only at h
    by_cases hr : (q.2.isNone && !P.disableHeuristics) = true
    · rw [if_pos hr] at h
      obtain ⟨q', hq', h⟩ := Outcome.bind_eq_ok.1 h
      have := Outcome.ok.inj h; subst this
      have hn : q.2 = none := by rw [Bool.and_eq_true] at hr; simpa using hr.1
      exact ⟨fun e he => .inr (.inr ⟨_, List.mem_cons_self, hn⟩), by simp, fun _ => .inr ⟨_, List.mem_cons_self, hn⟩⟩
    · rw [if_neg hr] at h
      have := Outcome.ok.inj h; subst this
      refine ⟨fun e he => ?_, by simp, fun hd => .inl (hprep.1 hd)⟩
      rw [List.mem_singleton] at he
      subst he
      rcases hor with h | h
      · exact .inr (.inl h)
      · exact .inl h

theorem propose_at {P : Params} {Q : Problem S V κ} {i : Nat} {s : S} {l : Lin κ}
    {p : Lin κ × List (Solve S V) × Option V} (h : propose P Q i s l = .ok p) : ∀ e ∈ p.2.1, e.iteration = i := by
  unfold propose at h
  by_cases h1 : i = 1 ∧ P.predict = true ∧ P.disableHeuristics = false
  · rw [if_pos h1] at h
    have := Outcome.ok.inj h; subst this
    simp
  · rw [if_neg h1] at h
    obtain ⟨l', hl', h⟩ := Outcome.bind_eq_ok.1 h
    unfold solveTwice at h
    obtain ⟨q, hq, h⟩ := Outcome.bind_eq_ok.1 h
    simp only at h
    split at h
    · obtain ⟨q', hq', h⟩ := Outcome.bind_eq_ok.1 h
      have := Outcome.ok.inj h; subst this
      simp
    · have := Outcome.ok.inj h; subst this
      simp

theorem iterate_later {P : Params} {Q : Problem S V κ} {tol : ℝ} :
    ∀ (fuel i : Nat) (s : S) (l : Lin κ) (r : Result S V), iterate P Q tol fuel i s l = .ok r →
      ∀ e ∈ r.solves, i ≤ e.iteration := by
  intro fuel
  induction fuel with
  | zero =>
    intro i s l r h e he
    unfold iterate at h
    have := Outcome.ok.inj h; subst this
    simp at he
  | succ fuel ih =>
    intro i s l r h e he
    unfold iterate at h
    by_cases ht : tol < Q.norm s
    · rw [if_pos ht] at h
      obtain ⟨p, hp, h⟩ := Outcome.bind_eq_ok.1 h
      split at h
      · have := Outcome.ok.inj h; subst this
        exact (propose_at hp e he).ge
      · obtain ⟨s', hs', h⟩ := Outcome.bind_eq_ok.1 h
        obtain ⟨r', hr', h⟩ := Outcome.bind_eq_ok.1 h
        have := Outcome.ok.inj h; subst this
        rcases List.mem_append.1 he with he | he
        · exact (propose_at hp e he).ge
        · have := ih (i + 1) s' p.1 r' hr' e he
          omega
    · rw [if_neg ht] at h
      have := Outcome.ok.inj h; subst this
      simp at he

theorem iterate_reason {P : Params} {Q : Problem S V κ} {tol : ℝ} :
    ∀ (fuel i : Nat) (s : S) (l : Lin κ) (r : Result S V), l.damped = false → iterate P Q tol fuel i s l = .ok r →
      ∀ e ∈ r.solves, Plain Q e.state e.matrix ∨ 50 < e.iteration ∨
        ∃ e' ∈ r.solves, e'.iteration ≤ e.iteration ∧ e'.answer = none := by
  intro fuel
  induction fuel with
  | zero =>
    intro i s l r hl h e he
    unfold iterate at h
    have := Outcome.ok.inj h; subst this
    simp at he
  | succ fuel ih =>
    intro i s l r hl h e he
    unfold iterate at h
    by_cases ht : tol < Q.norm s
    · rw [if_pos ht] at h
      obtain ⟨p, hp, h⟩ := Outcome.bind_eq_ok.1 h
      obtain ⟨h1, h2, h3⟩ := propose_iteration hl hp
      split at h
      · have := Outcome.ok.inj h; subst this
        rcases h1 e he with h | h | ⟨e', he', hn⟩
        · exact .inl h
        · exact .inr (.inl (by rw [h2 e he]; exact h))
        · exact .inr (.inr ⟨e', he', by rw [h2 e he, h2 e' he'], hn⟩)
      · obtain ⟨s', hs', h⟩ := Outcome.bind_eq_ok.1 h
        obtain ⟨r', hr', h⟩ := Outcome.bind_eq_ok.1 h
        have := Outcome.ok.inj h; subst this
        rcases List.mem_append.1 he with he | he
        · rcases h1 e he with h | h | ⟨e', he', hn⟩
          · exact .inl h
          · exact .inr (.inl (by rw [h2 e he]; exact h))
          · exact .inr (.inr ⟨e', List.mem_append_left _ he', by rw [h2 e he, h2 e' he'], hn⟩)
        · have hlt := iterate_later fuel (i + 1) s' p.1 r' hr' e he
          cases hd : p.1.damped with
          | false =>
            rcases ih (i + 1) s' p.1 r' hd hr' e he with h | h | ⟨e', he', h⟩
            · exact .inl h
            · exact .inr (.inl h)
            · exact .inr (.inr ⟨e', List.mem_append_right _ he', h⟩)
          | true =>
            rcases h3 hd with h | ⟨e', he', hn⟩
            · exact .inr (.inl (by omega))
            · exact .inr (.inr ⟨e', List.mem_append_left _ he', by rw [h2 e' he']; omega, hn⟩)
    · rw [if_neg ht] at h
      have := Outcome.ok.inj h; subst this
      simp at he

/-- **C227** (reason): the tangent of the current state is used unless a linear solution has failed in this load step or
more than fifty iterations were needed. -/
theorem C227_reason {P : Params} {Q : Problem S V κ} {tol : ℝ} {n : Nat} {s : S} {left : Mat} {solver : κ}
    {r : Result S V} (h : solveStep P Q tol n s left solver = .ok r) :
    ∀ e ∈ r.solves, Plain Q e.state e.matrix ∨ 50 < e.iteration ∨
      ∃ e' ∈ r.solves, e'.iteration ≤ e.iteration ∧ e'.answer = none :=
  iterate_reason n 1 s _ r rfl h

/-- **C227** (second attempt): if the linear solver fails on an undamped tangent and heuristics are not disabled, the
system is solved once more with the same right-hand side and the damped tangent, and what it gives is the outcome. -/
theorem C227_second_attempt {P : Params} {Q : Problem S V κ} {i : Nat} {s : S} {l : Lin κ}
    {p : Lin κ × List (Solve S V) × Option V} (hh : P.disableHeuristics = false) (hd : l.damped = false)
    (h : solveTwice P Q i s l = .ok p) {k : κ} (hf : Q.solve l.solver l.tangent (Q.residual s) = .ok (k, none)) :
    ∃ k', Q.solve (Q.dropPrec k) (damp P.scale P.shift l.tangent) (Q.residual s) = .ok (k', p.2.2) ∧
      p.1.damped = true ∧ p.1.tangent = damp P.scale P.shift l.tangent := by
  unfold solveTwice at h
  rw [hf] at h
  simp only [Outcome.ok_bind, Option.isNone_none, hh, Bool.not_false, Bool.and_self, if_true, hd, Bool.false_eq_true,
    if_false] at h
  obtain ⟨q, hq, h⟩ := Outcome.bind_eq_ok.1 h
  have := Outcome.ok.inj h; subst this
  exact ⟨q.1, hq, rfl, rfl⟩

/-- **C227** is false for the second attempt in damped mode: the system solved again is the one that has just failed, and
with a solver whose answer depends on the system only the load step always fails, even though the tangent may be up to
seven iterations old. -/
theorem C227_second_attempt_fails {P : Params} {Q : Problem S V κ} {i : Nat} {s : S} {l : Lin κ}
    {p : Lin κ × List (Solve S V) × Option V} (hQ : Memoryless Q) (hd : l.damped = true)
    (h : solveTwice P Q i s l = .ok p) {k : κ} (hf : Q.solve l.solver l.tangent (Q.residual s) = .ok (k, none)) :
    p.2.2 = none ∧ p.1.tangent = l.tangent ∧ ∀ e ∈ p.2.1, e.matrix = l.tangent ∧ e.answer = none := by
  unfold solveTwice at h
  rw [hf] at h
  simp only [Outcome.ok_bind, Option.isNone_none, hd, if_true, Bool.true_and] at h
  by_cases hh : (!P.disableHeuristics) = true
  · rw [if_pos hh] at h
    obtain ⟨q, hq, h⟩ := Outcome.bind_eq_ok.1 h
    have := Outcome.ok.inj h; subst this
    have e : q.2 = none := (hQ _ _ _ _ _ _ hf hq).symm
    refine ⟨e, rfl, fun x hx => ?_⟩
    rcases List.mem_cons.1 hx with rfl | hx
    · exact ⟨rfl, rfl⟩
    · rw [List.mem_singleton] at hx
      subst hx
      exact ⟨rfl, e⟩
  · rw [if_neg hh] at h
    have := Outcome.ok.inj h; subst this
    refine ⟨rfl, rfl, fun x hx => ?_⟩
    rw [List.mem_singleton] at hx
    subst hx
    exact ⟨rfl, rfl⟩

/-! ## Examples -/

/-- A problem with three states; the linear solver fails the first time. -/
noncomputable def demo : Problem Nat Unit Nat where
  tangent _ := .ok spring
  residual _ := ()
  norm s := if s < 2 then 1 else 0
  predictor := ()
  solve k _ _ := .ok (k + 1, if k = 0 then none else some ())
  dropPrec k := k
  advance s _ := .ok (s + 1)

/-- The default parameters. -/
noncomputable def demoParams : Params := ⟨1.0001, 0.00001, false, false⟩

/-- Three systems are solved in two iterations, the last one with a damped tangent that is one iteration old. -/
theorem demo_run : solveStep demoParams demo 0 10 0 [] 0 = .ok
    ⟨some 2, [(1, 0), (2, 1), (3, 2)], [⟨1, 0, spring, none⟩, ⟨1, 0, damp 1.0001 0.00001 spring, some ()⟩,
      ⟨2, 1, damp 1.0001 0.00001 spring, some ()⟩]⟩ := by
  have h2 : refreshes true 2 = false := by decide
  simp [solveStep, iterate, propose, prepare, solveTwice, demo, demoParams, numPure, Outcome.ok_bind, h2,
    show refreshes false 1 = true by decide]

example : ∃ r : Result Nat Unit, solveStep demoParams demo 0 10 0 [] 0 = .ok r ∧ r.solves.length = 3 :=
  ⟨_, demo_run, rfl⟩

example : demoParams.disableHeuristics = false ∧
    demo.solve 0 spring (demo.residual 0) = .ok (1, none) ∧ (∃ p, solveTwice demoParams demo 1 0 ⟨false, spring, 0⟩ = .ok p) :=
  ⟨rfl, rfl, by simp [solveTwice, demo, demoParams, Outcome.ok_bind]⟩

/-- A solver that never converges. -/
noncomputable def hopeless : Problem Nat Unit Nat := { demo with solve := fun k _ _ => .ok (k, none) }

example : Memoryless hopeless ∧ hopeless.solve 0 spring (hopeless.residual 0) = .ok (0, none) ∧
    (∃ p, solveTwice demoParams hopeless 1 0 ⟨true, spring, 0⟩ = .ok p) := by
  refine ⟨?_, rfl, by simp [solveTwice, hopeless, demoParams, Outcome.ok_bind]⟩
  intro k k' A b r r' h h'
  have := Outcome.ok.inj h; have := Outcome.ok.inj h'
  subst_vars; rfl

end Verif.Newton
