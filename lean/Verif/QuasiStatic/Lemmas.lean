import Verif.QuasiStatic.Spec
import Verif.Explicit.Lemmas
import Mathlib.Data.List.Chain
import Mathlib.Tactic.Positivity
import Mathlib.Tactic.Linarith
import Mathlib.Tactic.Ring

/-!
# Quasi-static load stepping: helper lemmas
-/

namespace Verif.QuasiStatic

open Verif Verif.BC Verif.Explicit

variable {σ ω : Type}

/-! ## Passes -/

theorem pass_cases {P : Params} {E : Env} {S : Solver σ ω} {tf : ℝ} {s : State σ ω}
    {x : Next σ ω} (h : pass P E S tf s = .ok x) :
    (s.times[s.step]? = none ∧ x = .finished s) ∨
    (∃ tc a l, s.times[s.step]? = some tc ∧
      attempt P E S s.N s.work s.predictor s.vecs s.step (oldTime P s) tc = .ok a ∧
      accepts a = true ∧
      rescheduled P tf s.times s.step s.failedInStep tc (tc - oldTime P s) = .ok l ∧
      x = .again (commit S s l (oldTime P s) tc a)) ∨
    (∃ tc a, s.times[s.step]? = some tc ∧
      attempt P E S s.N s.work s.predictor s.vecs s.step (oldTime P s) tc = .ok a ∧
      accepts a = false ∧ x = reject P s (oldTime P s) tc a) := by
  unfold pass at h
  split at h
  · rename_i e; exact .inl ⟨e, (ok_inj h).symm⟩
  · rename_i tc e
    obtain ⟨a, ha, h⟩ := Outcome.bind_eq_ok.mp h
    split at h
    · rename_i hacc
      obtain ⟨l, hl, h⟩ := Outcome.bind_eq_ok.mp h
      exact .inr (.inl ⟨tc, a, l, e, ha, hacc, hl, (ok_inj h).symm⟩)
    · rename_i hacc
      exact .inr (.inr ⟨tc, a, e, ha, by simpa using hacc, (ok_inj h).symm⟩)

/-- The two ways a rejected attempt ends. -/
theorem reject_cases (P : Params) (s : State σ ω) (tp tc : ℝ) (a : Attempt ω) :
    (∃ s', reject P s tp tc a = .gaveUp s' ∧ s'.times = s.times ∧ s'.step = s.step ∧
      s'.timePrevious = tp ∧ s'.vecs = a.iter.vecs ∧ s'.predictor = s.predictor ∧ s'.N = s.N ∧
      s'.log = s.log ∧ s'.failedInStep = s.failedInStep ∧
      (P.adaptive = none ∨ ∃ A, P.adaptive = some A ∧
        s'.total = s.total + 1 ∧ s'.inStep = s.inStep + 1 ∧
        (A.maxTotal < s'.total ∨ A.maxInOneStep < s'.inStep))) ∨
    (∃ A s', P.adaptive = some A ∧ ((s.total : Int) + 1 ≤ A.maxTotal) ∧
      ((s.inStep : Int) + 1 ≤ A.maxInOneStep) ∧ reject P s tp tc a = .again s' ∧
      s'.times = s.times.insertIdx s.step (tp + (tc - tp) / 2) ∧ s'.step = s.step ∧
      oldTime P s' = tp ∧ s'.vecs = a.iter.vecs ∧ s'.predictor = s.predictor ∧ s'.N = s.N ∧
      s'.log = s.log ∧ s'.failedInStep = true ∧ s'.total = s.total + 1 ∧
      s'.inStep = s.inStep + 1) := by
  cases hA : P.adaptive with
  | none =>
    left
    refine ⟨afterAttempt s tp tc a, by unfold reject; rw [hA], rfl, rfl, rfl, rfl, rfl, rfl, rfl, rfl, .inl rfl⟩
  | some A =>
    by_cases hc : A.maxTotal < (s.total : Int) + 1 ∨ A.maxInOneStep < (s.inStep : Int) + 1
    · left
      refine ⟨counted (afterAttempt s tp tc a), by unfold reject; rw [hA]; simp only; rw [if_pos hc], rfl,
        rfl, rfl, rfl, rfl, rfl, rfl, rfl, .inr ⟨A, rfl, rfl, rfl, ?_⟩⟩
      show A.maxTotal < ((s.total + 1 : Nat) : Int) ∨ A.maxInOneStep < ((s.inStep + 1 : Nat) : Int)
      push_cast
      exact hc
    · right
      refine ⟨A, cut (counted (afterAttempt s tp tc a)) tp tc, rfl, by omega, by omega, by unfold reject; rw [hA]; simp only; rw [if_neg hc], rfl,
        rfl, ?_, rfl, rfl, rfl, rfl, rfl, rfl, rfl⟩
      unfold oldTime
      rw [hA]
      rfl

theorem run_succ {P : Params} {E : Env} {S : Solver σ ω} {tf : ℝ} {n : Nat} {s : State σ ω}
    {x : Next σ ω} (h : run P E S tf (n + 1) s = .ok x) :
    ∃ y, pass P E S tf s = .ok y ∧
      ((∃ s', y = .again s' ∧ run P E S tf n s' = .ok x) ∨
        ((∀ s', y ≠ .again s') ∧ x = y)) := by
  unfold run at h
  obtain ⟨y, hy, h⟩ := Outcome.bind_eq_ok.mp h
  refine ⟨y, hy, ?_⟩
  cases y with
  | again s' => exact .inl ⟨s', rfl, h⟩
  | finished s' => exact .inr ⟨by simp, (ok_inj h).symm⟩
  | gaveUp s' => exact .inr ⟨by simp, (ok_inj h).symm⟩

/-- An invariant of single passes holds at the end of every run. -/
theorem run_invariant {P : Params} {E : Env} {S : Solver σ ω} {tf : ℝ} (Inv : State σ ω → Prop)
    (hpass : ∀ s x, Inv s → pass P E S tf s = .ok x → Inv x.state) : ∀ (n : Nat) (s : State σ ω)
    (x : Next σ ω), Inv s → run P E S tf n s = .ok x → Inv x.state := by
  intro n
  induction n with
  | zero =>
    intro s x hs h
    have := ok_inj h
    subst this
    exact hs
  | succ n ih =>
    intro s x hs h
    obtain ⟨y, hy, h | ⟨_, h⟩⟩ := run_succ h
    · obtain ⟨s', rfl, h⟩ := h
      exact ih s' x (hpass s _ hs hy) h
    · subst h; exact hpass s _ hs hy

/-- A run that finishes has used up its list. -/
theorem run_finished {P : Params} {E : Env} {S : Solver σ ω} {tf : ℝ} : ∀ (n : Nat)
    (s s' : State σ ω), run P E S tf n s = .ok (.finished s') → s'.times[s'.step]? = none := by
  intro n
  induction n with
  | zero => intro s s' h; exact absurd (ok_inj h) (by simp)
  | succ n ih =>
    intro s s' h
    obtain ⟨y, hy, ⟨s1, rfl, h⟩ | ⟨_, h⟩⟩ := run_succ h
    · exact ih s1 s' h
    · subst h
      rcases pass_cases hy with ⟨e, h⟩ | ⟨tc, a, l, _, _, _, _, h⟩ | ⟨tc, a, _, _, _, h⟩
      · injection h with h; subst h; exact e
      · exact absurd h (by simp)
      · rcases reject_cases P s (oldTime P s) tc a with ⟨s1, h1, _⟩ | ⟨_, s1, _, _, _, h1, _⟩ <;>
          (rw [h1] at h; exact absurd h (by simp))

theorem commit_oldTime {P : Params} (S : Solver σ ω) (s : State σ ω) (l : List ℝ) (tp tc : ℝ)
    (a : Attempt ω) : oldTime P (commit S s l tp tc a) = tc := by
  unfold oldTime commit
  simp

/-! ## The list of times -/

/-- The times of the list before `step` are those of the completed load steps; the last of them is
the old time of the coming attempt. -/
def Lined (P : Params) (t0 : ℝ) (s : State σ ω) : Prop :=
  ∃ pre rest, s.times = pre ++ oldTime P s :: rest ∧ s.step = pre.length + 1 ∧
    pre ++ [oldTime P s] = t0 :: s.completed

theorem lined_next {P : Params} {s : State σ ω} {pre rest : List ℝ} {tc : ℝ}
    (h : s.times = pre ++ oldTime P s :: rest) (hs : s.step = pre.length + 1)
    (e : s.times[s.step]? = some tc) : ∃ rest', rest = tc :: rest' := by
  rw [h, hs, List.getElem?_append_right (by omega)] at e
  simp only [Nat.add_sub_cancel_left, List.getElem?_cons_succ] at e
  cases rest with
  | nil => simp at e
  | cons b rest' =>
    simp only [List.getElem?_cons_zero, Option.some.injEq] at e
    exact ⟨rest', by rw [e]⟩

theorem lined_end {P : Params} {s : State σ ω} {pre rest : List ℝ}
    (h : s.times = pre ++ oldTime P s :: rest) (hs : s.step = pre.length + 1)
    (e : s.times[s.step]? = none) : rest = [] := by
  rw [h, hs, List.getElem?_append_right (by omega)] at e
  simp only [Nat.add_sub_cancel_left, List.getElem?_cons_succ] at e
  cases rest with
  | nil => rfl
  | cons b rest' => simp at e

theorem insert_lined (pre : List ℝ) (tp m : ℝ) (rest : List ℝ) :
    (pre ++ tp :: rest).insertIdx (pre.length + 1) m = pre ++ tp :: m :: rest := by
  induction pre with
  | nil => simp
  | cons a pre ih => simp [ih]

theorem take_lined (pre : List ℝ) (tp tc : ℝ) (rest : List ℝ) :
    (pre ++ tp :: tc :: rest).take (pre.length + 2) = pre ++ [tp, tc] := by
  induction pre with
  | nil => simp
  | cons a pre ih => simpa using ih

/-- How a pass changes the list of times. -/
theorem pass_times {P : Params} {E : Env} {S : Solver σ ω} {tf t0 : ℝ} {s : State σ ω}
    {x : Next σ ω} (hl : Lined P t0 s) (h : pass P E S tf s = .ok x) :
    (x = .finished s ∧ ∃ pre, s.times = pre ++ [oldTime P s]) ∨
    (∃ s', x = .gaveUp s' ∧ s'.times = s.times ∧ s'.log = s.log ∧ s'.step = s.step ∧
      s'.timePrevious = oldTime P s) ∨
    (∃ A s' pre tc rest, P.adaptive = some A ∧ x = .again s' ∧ Lined P t0 s' ∧ s'.log = s.log ∧
      oldTime P s' = oldTime P s ∧ s.times = pre ++ oldTime P s :: tc :: rest ∧
      s'.times = pre ++ oldTime P s :: (oldTime P s + (tc - oldTime P s) / 2) :: tc :: rest ∧
      s.step = pre.length + 1 ∧ s'.step = s.step ∧ s'.failedInStep = true) ∨
    (∃ s' pre tc rest rest', x = .again s' ∧ Lined P t0 s' ∧
      s.times = pre ++ oldTime P s :: tc :: rest ∧ s.step = pre.length + 1 ∧
      s'.step = s.step + 1 ∧ oldTime P s' = tc ∧
      s'.times = pre ++ oldTime P s :: tc :: rest' ∧
      s'.failedInStep = false ∧
      (rest' = rest ∧ (s.failedInStep = false ∨ NoReduce P) ∨ ∃ A, P.adaptive = some A ∧ A.reduceAll = true ∧
        extension tc (tc - oldTime P s) tf = .ok rest')) := by
  obtain ⟨pre, rest0, ht, hs, hv⟩ := hl
  rcases pass_cases h with ⟨e, rfl⟩ | ⟨tc, a, l, e, _, _, hr, rfl⟩ | ⟨tc, a, e, _, _, rfl⟩
  · have := lined_end ht hs e
    subst this
    exact .inl ⟨rfl, pre, ht⟩
  · right; right; right
    obtain ⟨rest, rfl⟩ := lined_next ht hs e
    have hnew : ∀ rest', l = pre ++ oldTime P s :: tc :: rest' →
        Lined P t0 (commit S s l (oldTime P s) tc a) := by
      intro rest' hl
      refine ⟨pre ++ [oldTime P s], rest', ?_, ?_, ?_⟩
      · rw [commit_oldTime]; show l = _; rw [hl]; simp
      · show s.step + 1 = _; rw [hs]; simp
      · rw [commit_oldTime, hv]
        show _ = t0 :: (s.log ++ [_]).map Record.time
        rw [List.map_append]; rfl
    unfold rescheduled at hr
    split at hr
    · rename_i hA
      have := ok_inj hr; subst this
      exact ⟨_, pre, tc, rest, rest, rfl, hnew rest ht, ht, hs, rfl, commit_oldTime .., ht, rfl,
        .inl ⟨rfl, .inr fun A h => by rw [hA] at h; exact absurd h (by simp)⟩⟩
    · rename_i A hA
      split at hr
      · rename_i hc
        obtain ⟨r', hr', hr⟩ := Outcome.bind_eq_ok.mp hr
        have hl := (ok_inj hr).symm
        rw [ht, hs, take_lined] at hl
        have hl' : l = pre ++ oldTime P s :: tc :: r' := by rw [hl]; simp
        exact ⟨_, pre, tc, rest, r', rfl, hnew r' hl', ht, hs, rfl, commit_oldTime .., hl', rfl,
          .inr ⟨A, hA, hc.1, hr'⟩⟩
      · rename_i hc
        have := ok_inj hr; subst this
        refine ⟨_, pre, tc, rest, rest, rfl, hnew rest ht, ht, hs, rfl, commit_oldTime .., ht, rfl,
          .inl ⟨rfl, ?_⟩⟩
        cases hf : s.failedInStep with
        | false => exact .inl rfl
        | true =>
          right
          intro A' hA'
          rw [hA] at hA'
          injection hA' with hA'
          subst hA'
          cases hr : A.reduceAll with
          | false => rfl
          | true => exact absurd ⟨hr, hf⟩ hc
  · obtain ⟨rest, rfl⟩ := lined_next ht hs e
    rcases reject_cases P s (oldTime P s) tc a with
      ⟨s', h1, h2, h3, h4, _, _, _, h5, _⟩ | ⟨A, s', hA, _, _, h1, h2, h3, h4, _, _, _, h5, h6, _⟩
    · exact .inr (.inl ⟨s', h1, h2, h5, h3, h4⟩)
    · right; right; left
      have ht' : s'.times = pre ++ oldTime P s :: (oldTime P s + (tc - oldTime P s) / 2) :: tc :: rest := by
        rw [h2, ht, hs, insert_lined]
      refine ⟨A, s', pre, tc, rest, hA, h1, ⟨pre, _, by rw [h4]; exact ht', by rw [h3, hs], ?_⟩, h5, h4, ht,
        ht', hs, h3, h6⟩
      rw [h4, hv]; unfold State.completed; rw [h5]

/-! ## The extension of the list -/

theorem gen_succ (tc dt : ℝ) (n : Nat) :
    ((List.range (n + 1)).map fun i : Nat => tc + ((i : ℝ) + 1) * dt) =
      (tc + dt) :: (List.range n).map fun i : Nat => (tc + dt) + ((i : ℝ) + 1) * dt := by
  rw [List.range_succ_eq_map, List.map_cons, List.map_map]
  congr 1
  · simp
  · apply List.map_congr_left
    intro i _
    simp only [Function.comp_apply, Nat.succ_eq_add_one]
    push_cast
    ring

theorem gen_chain {dt : ℝ} (hdt : 0 < dt) : ∀ (n : Nat) (tc : ℝ),
    (tc :: (List.range n).map fun i : Nat => tc + ((i : ℝ) + 1) * dt).IsChain (· < ·) := by
  intro n
  induction n with
  | zero => intro tc; simp
  | succ n ih =>
    intro tc
    rw [gen_succ, List.isChain_cons_cons]
    exact ⟨by linarith, ih (tc + dt)⟩

theorem gen_last (dt : ℝ) : ∀ (n : Nat) (tc : ℝ),
    (tc :: (List.range n).map fun i : Nat => tc + ((i : ℝ) + 1) * dt).getLast? = some (tc + n * dt) := by
  intro n
  induction n with
  | zero => intro tc; simp
  | succ n ih =>
    intro tc
    rw [gen_succ, List.getLast?_cons_cons, ih]
    congr 1
    push_cast
    ring

theorem gen_fits {dt tf : ℝ} (hdt : 0 < dt) : ∀ (n : Nat) (tc : ℝ), tf - tc = n * dt →
    (tc :: (List.range n).map fun i : Nat => tc + ((i : ℝ) + 1) * dt).IsChain
      (fun a b => a < b ∧ Fits tf a b) := by
  intro n
  induction n with
  | zero => intro tc _; simp
  | succ n ih =>
    intro tc h
    rw [gen_succ, List.isChain_cons_cons]
    have h' : tf - (tc + dt) = n * dt := by push_cast at h; linarith
    exact ⟨⟨by linarith, n, by rw [h']; ring⟩, ih (tc + dt) h'⟩

theorem gen_below {dt tf : ℝ} : ∀ (n : Nat) (tc : ℝ), 0 < dt → tc + n * dt < tf + dt → tc < tf →
    ∀ init l, tc :: (List.range n).map (fun i : Nat => tc + ((i : ℝ) + 1) * dt) = init ++ [l] →
      ∀ a ∈ init, a < tf := by
  intro n
  induction n with
  | zero =>
    intro tc _ _ _ init l h a ha
    cases init with
    | nil => simp at ha
    | cons b init => simp at h
  | succ n ih =>
    intro tc hdt hn hlt init l h a ha
    rw [gen_succ] at h
    cases init with
    | nil => simp at ha
    | cons b init =>
      rw [List.cons_append, List.cons.injEq] at h
      rcases List.mem_cons.mp ha with rfl | ha
      · rw [← h.1]; exact hlt
      · have hn' : tc + dt + n * dt < tf + dt := by push_cast at hn; linarith
        rcases Nat.eq_zero_or_pos n with rfl | hpos
        · simp only [List.range_zero, List.map_nil] at h
          cases init with
          | nil => simp at ha
          | cons c init => simp at h
        · have : (1 : ℝ) ≤ n := by exact_mod_cast hpos
          exact ih (tc + dt) hdt hn' (by nlinarith) init l h.2 a ha

theorem ext_chain {tp tc tf : ℝ} {r : List ℝ} (hlt : tp < tc)
    (h : extension tc (tc - tp) tf = .ok r) : (tc :: r).IsChain (· < ·) := by
  unfold extension at h
  split at h
  · have := ok_inj h; subst this; simp
  · rw [if_neg (by linarith)] at h
    have := ok_inj h; subst this
    exact gen_chain (by linarith) _ _

theorem ext_fits {tp tc tf : ℝ} {r : List ℝ} (hlt : tp < tc) (hf : Fits tf tp tc)
    (h : extension tc (tc - tp) tf = .ok r) :
    (tc :: r).IsChain (fun a b => a < b ∧ Fits tf a b) ∧ (tc :: r).getLast? = some tf := by
  obtain ⟨m, hm⟩ := hf
  have hd : 0 < tc - tp := by linarith
  unfold extension at h
  split at h
  · rename_i hle
    have := ok_inj h; subst this
    have hz : tf - tc = 0 := by
      apply le_antisymm (by linarith)
      rw [hm]; positivity
    exact ⟨by simp, by simp; linarith⟩
  · rw [if_neg (by linarith)] at h
    have := ok_inj h; subst this
    have hc : ⌈(tf - tc) / (tc - tp)⌉₊ = m := by
      rw [hm, mul_div_assoc, div_self (ne_of_gt hd), mul_one, Nat.ceil_natCast]
    rw [hc]
    exact ⟨gen_fits hd m tc hm, by rw [gen_last, ← hm]; congr 1; ring⟩

theorem ext_covers {tp tc tf : ℝ} {r : List ℝ} (hlt : tp < tc)
    (h : extension tc (tc - tp) tf = .ok r) :
    ∃ init l, tc :: r = init ++ [l] ∧ tf ≤ l ∧ ∀ a ∈ init, a < tf := by
  have hd : 0 < tc - tp := by linarith
  unfold extension at h
  split at h
  · rename_i hle
    have := ok_inj h; subst this
    exact ⟨[], tc, rfl, hle, by simp⟩
  · rename_i hnle
    rw [if_neg (by linarith)] at h
    have := ok_inj h; subst this
    have hlast := gen_last (tc - tp) ⌈(tf - tc) / (tc - tp)⌉₊ tc
    obtain ⟨init, hi⟩ := List.getLast?_eq_some_iff.mp hlast
    refine ⟨init, _, hi, ?_, ?_⟩
    · have := (div_le_iff₀ hd).mp (Nat.le_ceil ((tf - tc) / (tc - tp)))
      linarith
    · refine gen_below _ tc hd ?_ (by linarith) init _ hi
      have h0 : 0 ≤ (tf - tc) / (tc - tp) := by
        apply div_nonneg <;> linarith
      have := Nat.ceil_lt_add_one h0
      have h1 : (⌈(tf - tc) / (tc - tp)⌉₊ : ℝ) - 1 < (tf - tc) / (tc - tp) := by linarith
      have := (lt_div_iff₀ hd).mp h1
      linarith

end Verif.QuasiStatic
