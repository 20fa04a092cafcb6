import Verif.Storage.LoaderSpec
import Mathlib.Tactic.FieldSimp
import Mathlib.Tactic.Ring
import Mathlib.Tactic.Linarith

namespace Verif.Storage

open Verif

theorem findBracket_some {t : ℝ} {file : List FileStep} {a b : FileStep}
    (h : findBracket t file = some (a, b)) :
    ∃ k : Nat, file[k]? = some a ∧ file[k + 1]? = some b ∧ a.time ≤ t ∧ t ≤ b.time := by
  induction file with
  | nil => simp [findBracket] at h
  | cons c rest ih =>
    cases rest with
    | nil => simp [findBracket] at h
    | cons d rest =>
      rw [findBracket] at h
      split at h
      · next hc =>
          simp only [Option.some.injEq, Prod.mk.injEq] at h
          obtain ⟨rfl, rfl⟩ := h
          exact ⟨0, by simp, by simp, hc⟩
      · obtain ⟨k, h1, h2, h3⟩ := ih h
        exact ⟨k + 1, by simpa using h1, by simpa using h2, h3⟩

theorem findBracket_none {t : ℝ} {file : List FileStep} :
    findBracket t file = none ↔ ¬ Covered file t := by
  induction file with
  | nil => simp [findBracket, Covered]
  | cons c rest ih =>
    cases rest with
    | nil => simp [findBracket, Covered]
    | cons d rest =>
      rw [findBracket]
      split
      · next hc =>
          simp only [reduceCtorEq, false_iff, not_not]
          exact ⟨0, c, d, by simp, by simp, hc⟩
      · next hc =>
          rw [ih]
          constructor
          · rintro hn ⟨k, a, b, h1, h2, h3⟩
            rcases k with _ | k
            · simp at h1 h2
              subst h1; subst h2
              exact hc h3
            · exact hn ⟨k, a, b, by simpa using h1, by simpa using h2, h3⟩
          · rintro hn ⟨k, a, b, h1, h2, h3⟩
            exact hn ⟨k + 1, a, b, by simpa using h1, by simpa using h2, h3⟩

/-- Two pairs of consecutive steps around the same time are the same, or share the step with that
time. -/
theorem bracket_unique {t : ℝ} {file : List FileStep} (hi : Increasing file) {k l : Nat}
    {a b c d : FileStep} (ha : file[k]? = some a) (hb : file[k + 1]? = some b)
    (hc : file[l]? = some c) (hd : file[l + 1]? = some d) (h1 : a.time ≤ t) (h2 : t ≤ b.time)
    (h3 : c.time ≤ t) (h4 : t ≤ d.time) :
    (a = c ∧ b = d) ∨ (b = c ∧ t = b.time) ∨ (a = d ∧ t = a.time) := by
  have key : ∀ (i j : Nat) (p q : FileStep), file[i]? = some p → file[j]? = some q → i < j →
      p.time < q.time := by
    intro i j p q hp hq hij
    obtain ⟨hi', rfl⟩ := List.getElem?_eq_some_iff.1 hp
    obtain ⟨hj', rfl⟩ := List.getElem?_eq_some_iff.1 hq
    exact List.pairwise_iff_getElem.1 hi i j hi' hj' hij
  rcases Nat.lt_trichotomy k l with h | h | h
  · rcases Nat.lt_or_ge (k + 1) l with h' | h'
    · have := key _ _ _ _ hb hc h'
      linarith
    · have : l = k + 1 := by omega
      subst this
      rw [hb] at hc
      cases hc
      exact Or.inr (Or.inl ⟨rfl, le_antisymm h2 h3⟩)
  · subst h
    rw [ha] at hc; rw [hb] at hd
    cases hc; cases hd
    exact Or.inl ⟨rfl, rfl⟩
  · rcases Nat.lt_or_ge (l + 1) k with h' | h'
    · have := key _ _ _ _ hd ha h'
      linarith
    · have : k = l + 1 := by omega
      subst this
      rw [ha] at hd
      cases hd
      exact Or.inr (Or.inr ⟨rfl, le_antisymm h4 h1⟩)

/-- The two steps held are consecutive steps of the file, or the loader has not read any. -/
def Held (file : List FileStep) (s : Loader) : Prop :=
  (s.time1 = -1 ∧ s.time2 = -1) ∨
  ∃ (k : Nat) (a b : FileStep), file[k]? = some a ∧ file[k + 1]? = some b ∧
    s.time1 = a.time ∧ s.time2 = b.time ∧ s.data1 = a.data ∧ s.data2 = b.data

theorem interpolated_onLine {file : List FileStep} (hi : Increasing file) {s : Loader} {k : Nat}
    {a b : FileStep} (ha : file[k]? = some a) (hb : file[k + 1]? = some b)
    (e1 : s.time1 = a.time) (e2 : s.time2 = b.time) (e3 : s.data1 = a.data)
    (e4 : s.data2 = b.data) (h1 : a.time ≤ s.time) (h2 : s.time ≤ b.time) :
    ∃ v, s.interpolated = .ok v ∧ OnLine file s.time v := by
  have hab : a.time < b.time := by
    obtain ⟨hk, rfl⟩ := List.getElem?_eq_some_iff.1 ha
    obtain ⟨hk', rfl⟩ := List.getElem?_eq_some_iff.1 hb
    exact List.pairwise_iff_getElem.1 hi k (k + 1) hk hk' (Nat.lt_succ_self k)
  have hne : b.time - a.time ≠ 0 := by linarith
  refine ⟨fun i => (1 - (s.time - a.time) / (b.time - a.time)) * a.data i +
      (s.time - a.time) / (b.time - a.time) * b.data i, ?_, ?_⟩
  · rw [Loader.interpolated, if_neg (by rw [e1, e2]; exact hne), e1, e2, e3, e4]
  · intro l c d hc hd h3 h4 i
    rcases bracket_unique hi ha hb hc hd h1 h2 h3 h4 with ⟨rfl, rfl⟩ | ⟨rfl, ht⟩ | ⟨rfl, ht⟩
    · field_simp
      ring
    · rw [ht]
      field_simp
      ring
    · rw [ht]
      simp

/-- A request for a new time, other than -1. -/
theorem update_cases {file : List FileStep} (hi : Increasing file) {s : Loader}
    (hs : Held file s) (ht : s.time ≠ -1) :
    (Covered file s.time ∧ ∃ v s', s.update file = (s', .ok v) ∧ OnLine file s.time v ∧
      Held file s' ∧ s'.time = s.time ∧ s'.scratch = .ok v) ∨
    (¬ Covered file s.time ∧ s.update file = (s, .fail .runtimeError)) := by
  by_cases hin : s.time < s.time1 ∨ s.time > s.time2
  · rw [Loader.update, Loader.refresh, if_pos hin, Loader.readFile]
    rcases h : findBracket s.time file with _ | ⟨a, b⟩
    · exact Or.inr ⟨findBracket_none.1 h, by simp⟩
    · obtain ⟨k, ha, hb, h1, h2⟩ := findBracket_some h
      left
      obtain ⟨v, hv, hl⟩ := interpolated_onLine hi
        (s := { s with time1 := a.time, time2 := b.time, data1 := a.data, data2 := b.data })
        ha hb rfl rfl rfl rfl h1 h2
      refine ⟨⟨k, a, b, ha, hb, h1, h2⟩, v,
        { s with time1 := a.time, time2 := b.time, data1 := a.data, data2 := b.data,
                 scratch := .ok v }, ?_, hl, ?_, ?_, ?_⟩
      · simp only [hv]
      · exact Or.inr ⟨k, a, b, ha, hb, rfl, rfl, rfl, rfl⟩
      · rfl
      · rfl
  · rw [Loader.update, Loader.refresh, if_neg hin]
    push Not at hin
    rcases hs with ⟨e1, e2⟩ | ⟨k, a, b, ha, hb, e1, e2, e3, e4⟩
    · exact absurd (le_antisymm (by rw [← e2]; exact hin.2) (by rw [← e1]; exact hin.1)) ht
    · left
      have h1 : a.time ≤ s.time := by rw [← e1]; exact hin.1
      have h2 : s.time ≤ b.time := by rw [← e2]; exact hin.2
      obtain ⟨v, hv, hl⟩ := interpolated_onLine hi ha hb e1 e2 e3 e4 h1 h2
      refine ⟨⟨k, a, b, ha, hb, h1, h2⟩, v, { s with scratch := .ok v }, ?_, hl, ?_, ?_, ?_⟩
      · simp only [hv]
      · exact Or.inr ⟨k, a, b, ha, hb, e1, e2, e3, e4⟩
      · rfl
      · rfl

/-- What holds between requests. -/
structure Good (file : List FileStep) (s : Loader) (last : Option ℝ) : Prop where
  held : Held file s
  time : s.time = last.getD (-1)
  scratch : s.time ≠ -1 → Covered file s.time → ∃ v, s.scratch = .ok v ∧ OnLine file s.time v
  some : ∃ v, s.scratch = .ok v

theorem good_new (file : List FileStep) : Good file Loader.new none :=
  ⟨Or.inl ⟨rfl, rfl⟩, rfl, fun h => absurd rfl h, ⟨_, rfl⟩⟩

theorem good_load {file : List FileStep} (hi : Increasing file) {s : Loader} {last : Option ℝ}
    (hg : Good file s last) {t : ℝ} (ht : t ≠ -1) : Good file (s.load file t).1 (some t) := by
  rw [Loader.load]
  split
  · next hne =>
    have hh : Held file { s with time := t } := hg.held
    rcases update_cases hi hh ht with ⟨hc, v, s', e, hl, hh', ht', hs'⟩ | ⟨hc, e⟩
    · rw [e]
      exact ⟨hh', ht', fun _ _ => ⟨v, hs', by rw [ht']; exact hl⟩, ⟨v, hs'⟩⟩
    · rw [e]
      exact ⟨hh, rfl, fun _ h => absurd h hc, hg.some⟩
  · next he =>
    have he' : t = s.time := not_not.1 he
    exact ⟨hg.held, he'.symm, hg.scratch, hg.some⟩

theorem good_after {file : List FileStep} (hi : Increasing file) {s : Loader} {last : Option ℝ}
    (hg : Good file s last) (ts : List ℝ) (hts : ∀ t ∈ ts, t ≠ -1) :
    Good file (s.after file ts) (if ts = [] then last else ts.getLast?) := by
  induction ts generalizing s last with
  | nil => exact hg
  | cons t ts ih =>
    have := ih (good_load hi hg (hts t (by simp))) (fun t' h => hts t' (by simp [h]))
    rw [Loader.after, List.foldl_cons]
    rw [Loader.after] at this
    rw [if_neg (by simp)]
    by_cases h : ts = []
    · subst h; exact this
    · rw [if_neg h] at this
      obtain ⟨c, r, rfl⟩ := List.exists_cons_of_ne_nil h
      rw [List.getLast?_cons_cons]
      exact this

end Verif.Storage
