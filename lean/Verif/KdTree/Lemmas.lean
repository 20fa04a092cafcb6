import Verif.KdTree.Spec
import Mathlib.Tactic.Linarith
import Mathlib.Tactic.FinCases
import Mathlib.Data.List.Perm.Basic
import Mathlib.Data.List.Nodup

/-! Lemmas about the construction of the k-d tree. -/

noncomputable section

namespace Verif.KdTree

open Verif Verif.Mech
open scoped Classical

/-! ### Splitting -/

theorem splitLoop_eq (below : Nat → Bool) (size : Nat) (l : List Nat) :
    ∀ (left right : Nat) (buf : Nat → Option Nat), left + (l.filter below).length ≤ right →
      right + (l.filter fun i => !below i).length ≤ size →
      splitLoop below size l left right buf = .ok fun i =>
        if left ≤ i ∧ i < left + (l.filter below).length then (l.filter below)[i - left]?
        else if right ≤ i ∧ i < right + (l.filter fun i => !below i).length then (l.filter fun i => !below i)[i - right]?
        else buf i := by
  induction l with
  | nil =>
    intro left right buf _ _
    rw [splitLoop]
    congr 1
    funext i
    rw [if_neg (by simp), if_neg (by simp)]
  | cons a t ih =>
    intro left right buf h1 h2
    by_cases hb : below a = true
    · simp only [List.filter_cons, hb, if_true, List.length_cons, Bool.not_true, if_false,
        Bool.false_eq_true] at h1 h2 ⊢
      rw [splitLoop, if_pos hb, if_pos (by omega), ih _ _ _ (by omega) h2]
      congr 1
      funext i
      by_cases e : i = left
      · subst e
        rw [if_neg (by omega), if_neg (by omega), if_pos (by omega)]
        simp
      · by_cases e2 : left + 1 ≤ i ∧ i < left + 1 + (t.filter below).length
        · rw [if_pos e2, if_pos (by omega)]
          obtain ⟨d, hd⟩ : ∃ d, i - left = d + 1 := ⟨i - left - 1, by omega⟩
          rw [hd, List.getElem?_cons_succ]
          congr 1
          omega
        · rw [if_neg e2, if_neg (by omega : ¬ (left ≤ i ∧ i < left + ((t.filter below).length + 1)))]
          split
          · rfl
          · rw [Function.update_of_ne e]
    · have hb' : below a = false := by simpa using hb
      simp only [List.filter_cons, hb', if_true, List.length_cons, Bool.not_false, if_false,
        Bool.false_eq_true] at h1 h2 ⊢
      rw [splitLoop, if_neg hb, if_pos (by omega), ih _ _ _ (by omega) (by omega)]
      congr 1
      funext i
      by_cases e0 : left ≤ i ∧ i < left + (t.filter below).length
      · rw [if_pos e0, if_pos e0]
      · rw [if_neg e0, if_neg e0]
        by_cases e : i = right
        · subst e
          rw [if_neg (by omega), if_pos (by omega)]
          simp
        · by_cases e2 : right + 1 ≤ i ∧ i < right + 1 + (t.filter fun i => !below i).length
          · rw [if_pos e2, if_pos (by omega)]
            obtain ⟨d, hd⟩ : ∃ d, i - right = d + 1 := ⟨i - right - 1, by omega⟩
            rw [hd, List.getElem?_cons_succ]
            congr 1
            omega
          · rw [if_neg e2, if_neg (by omega), Function.update_of_ne e]

theorem length_filters (below : Nat → Bool) (l : List Nat) :
    (l.filter below).length + (l.filter fun i => !below i).length = l.length := by
  induction l with
  | nil => rfl
  | cons a t ih =>
    by_cases hb : below a = true
    · simp [hb]; omega
    · have hb' : below a = false := by simpa using hb
      simp [hb']; omega

/-- The split is a stable partition if the number of ids below the cut is the given one. -/
theorem split_eq (below : Nat → Bool) (k : Nat) (l : List Nat) (hk : (l.filter below).length = k) :
    split below k l = .ok (l.filter below ++ l.filter fun i => !below i) := by
  have hl := length_filters below l
  rw [split, splitLoop_eq below l.length l 0 k _ (by omega) (by omega)]
  simp only [Outcome.ok_bind, Nat.zero_add, Nat.zero_le, true_and, Nat.sub_zero]
  rw [readBack]
  have key : ∀ i < l.length, (if i < (l.filter below).length then (l.filter below)[i]?
      else if k ≤ i ∧ i < k + (l.filter fun i => !below i).length then (l.filter fun i => !below i)[i - k]?
      else none) = (l.filter below ++ l.filter fun i => !below i)[i]? := by
    intro i hi
    by_cases h : i < (l.filter below).length
    · rw [if_pos h, List.getElem?_append_left h]
    · rw [if_neg h, if_pos (by omega), List.getElem?_append_right (by omega), hk]
  rw [if_pos]
  · congr 1
    apply List.ext_getElem?
    intro i
    by_cases h : i < l.length
    · rw [List.getElem?_map, List.getElem?_range h, Option.map_some, key i h]
      have : i < (l.filter below ++ l.filter fun i => !below i).length := by rw [List.length_append]; omega
      rw [List.getElem?_eq_getElem this]
      rfl
    · rw [List.getElem?_eq_none (by simp; omega), List.getElem?_eq_none (by rw [List.length_append]; omega)]
  · rw [List.all_eq_true]
    intro i hi
    rw [List.mem_range] at hi
    rw [key i hi, List.getElem?_eq_getElem (by rw [List.length_append]; omega)]
    rfl

/-! ### Median -/

/-- The index arrays of a subtree: sorted, with the same ids of points. -/
structure Good (x : Nat → V3) (n : Nat) (p : Fin 3 → List Nat) : Prop where
  sorted : ∀ c, (p c).Pairwise fun i j => x i c ≤ x j c
  perm : ∀ c, (p c).Perm (p 0)
  bound : ∀ i ∈ p 0, i < n
  nodup : (p 0).Nodup

theorem Good.filter {x : Nat → V3} {n : Nat} {p : Fin 3 → List Nat} (g : Good x n p) (b : Nat → Bool) :
    Good x n fun c => (p c).filter b where
  sorted := fun c => (g.sorted c).filter _
  perm := fun c => (g.perm c).filter _
  bound := fun i hi => g.bound i (List.mem_of_mem_filter hi)
  nodup := g.nodup.filter _

theorem sorted_split (x : Nat → V3) (c : Fin 3) (v : ℝ) (l : List Nat) (h : l.Pairwise fun i j => x i c ≤ x j c) :
    l.takeWhile (fun i => decide (x i c < v)) = l.filter (fun i => decide (x i c < v)) ∧
    l.dropWhile (fun i => decide (x i c < v)) = l.filter (fun i => !decide (x i c < v)) := by
  induction l with
  | nil => exact ⟨rfl, rfl⟩
  | cons a t ih =>
    rw [List.pairwise_cons] at h
    obtain ⟨h1, h2⟩ := ih h.2
    by_cases hb : x a c < v
    · simp [hb, h1, h2]
    · have hall : ∀ i ∈ t, ¬ x i c < v := fun i hi hlt => hb (lt_of_le_of_lt (h.1 i hi) hlt)
      constructor
      · simp only [List.takeWhile_cons, List.filter_cons, decide_eq_true_eq, if_neg hb]
        rw [List.filter_eq_nil_iff.2]
        intro i hi
        simpa using hall i hi
      · simp only [List.dropWhile_cons, List.filter_cons, decide_eq_true_eq, if_neg hb]
        simp only [hb, decide_false, Bool.not_false, if_true]
        rw [List.filter_eq_self.2]
        intro i hi
        simpa using hall i hi

theorem take_sorted (x : Nat → V3) (c : Fin 3) (v : ℝ) (l : List Nat) (h : l.Pairwise fun i j => x i c ≤ x j c) :
    l.take (l.filter fun i => decide (x i c < v)).length = l.filter (fun i => decide (x i c < v)) ∧
    l.drop (l.filter fun i => decide (x i c < v)).length = l.filter (fun i => !decide (x i c < v)) := by
  obtain ⟨h1, h2⟩ := sorted_split x c v l h
  have e := List.takeWhile_append_dropWhile (p := fun i => decide (x i c < v)) (l := l)
  rw [h1, h2] at e
  generalize l.filter (fun i => decide (x i c < v)) = A at e
  generalize l.filter (fun i => !decide (x i c < v)) = B at e
  subst e
  exact ⟨List.take_left, List.drop_left⟩

theorem getLastD_mem {l : List Nat} (h : l ≠ []) : l.getLastD 0 ∈ l := by
  cases l with
  | nil => exact absurd rfl h
  | cons a t =>
    rw [List.getLastD_cons]
    exact List.getLastD_mem_cons ..

theorem headD_mem {l : List Nat} (h : l ≠ []) : l.headD 0 ∈ l := by
  cases l with
  | nil => exact absurd rfl h
  | cons a t => simp

/-- In a sorted list the first entry is the smallest and the last one the largest. -/
theorem sorted_ends (x : Nat → V3) (c : Fin 3) (l : List Nat) (h : l.Pairwise fun i j => x i c ≤ x j c) :
    ∀ i ∈ l, firstValue x c l ≤ x i c ∧ x i c ≤ lastValue x c l := by
  intro i hi
  constructor
  · cases l with
    | nil => cases hi
    | cons a t =>
      rw [List.pairwise_cons] at h
      rw [firstValue, List.headD_cons]
      rcases List.mem_cons.1 hi with rfl | hi
      · exact le_rfl
      · exact h.1 i hi
  · have hne : l ≠ [] := List.ne_nil_of_mem hi
    rw [lastValue, List.getLastD_eq_getLast?, List.getLast?_eq_some_getLast hne, Option.getD_some]
    have e := List.dropLast_append_getLast hne
    rw [← e, List.mem_append, List.mem_singleton] at hi
    rcases hi with hi | hi
    · rw [← e, List.pairwise_append] at h
      exact h.2.2 i hi _ (List.mem_singleton.2 rfl)
    · rw [← hi]

theorem spanningAxis_cut (rnd : ℝ → ℝ) (x : Nat → V3) (p : Fin 3 → List Nat)
    (h : ∀ c, 0 ≤ rnd (lastValue x c (p c) - firstValue x c (p c))) :
    (spanningAxis rnd x p).2 = middle rnd (firstValue x (spanningAxis rnd x p).1 (p (spanningAxis rnd x p).1))
      (lastValue x (spanningAxis rnd x p).1 (p (spanningAxis rnd x p).1)) := by
  simp only [spanningAxis, abs_of_nonneg (h _), middle]
  split <;> split <;> rfl

theorem spanningAxis_max (rnd : ℝ → ℝ) (x : Nat → V3) (p : Fin 3 → List Nat)
    (h : ∀ c, 0 ≤ rnd (lastValue x c (p c) - firstValue x c (p c))) (c : Fin 3) :
    rnd (lastValue x c (p c) - firstValue x c (p c)) ≤
      rnd (lastValue x (spanningAxis rnd x p).1 (p (spanningAxis rnd x p).1) -
        firstValue x (spanningAxis rnd x p).1 (p (spanningAxis rnd x p).1)) := by
  simp only [spanningAxis, abs_of_nonneg (h _)]
  have h3 : c = 0 ∨ c = 1 ∨ c = 2 := by fin_cases c <;> simp
  split <;> split <;> rename_i a b <;> simp only [not_lt, gt_iff_lt] at a b ⊢ <;>
    rcases h3 with rfl | rfl | rfl <;> first | exact le_rfl | linarith

theorem medianIndex_eq (rnd : ℝ → ℝ) (x : Nat → V3) (c : Fin 3) (l : List Nat) (hne : l ≠ [])
    (h : l.Pairwise fun i j => x i c ≤ x j c)
    (hm : middle rnd (firstValue x c l) (lastValue x c l) ≤ lastValue x c l) :
    medianIndex rnd x c l = .ok
      (l.filter fun i => decide (x i c < middle rnd (firstValue x c l) (lastValue x c l))).length := by
  have hd : rnd (firstValue x c l + rnd (rnd (lastValue x c l - firstValue x c l) / 2)) =
    middle rnd (firstValue x c l) (lastValue x c l) := rfl
  simp only [medianIndex, hd]
  generalize hv : middle rnd (firstValue x c l) (lastValue x c l) = v at hm ⊢
  have e := List.dropLast_append_getLast hne
  have hs : l.dropLast.Pairwise fun i j => x i c ≤ x j c := h.sublist (List.dropLast_sublist l)
  obtain ⟨h1, h2⟩ := sorted_split x c v l.dropLast hs
  have hl : ¬ x (l.getLast hne) c < v := by
    rw [lastValue, List.getLastD_eq_getLast?, List.getLast?_eq_some_getLast hne, Option.getD_some] at hm
    linarith
  have hf : l.filter (fun i => decide (x i c < v)) = l.dropLast.filter fun i => decide (x i c < v) := by
    conv_lhs => rw [← e]
    rw [List.filter_append]
    simp [hl]
  rw [h1, h2, hf, if_neg]
  · generalize hk : (l.dropLast.filter fun i => decide (x i c < v)).length = k
    by_cases h0 : k = 0
    · rw [if_pos h0, h0]
    · rw [if_neg h0, if_pos]
      have hlt : k - 1 < (l.dropLast.filter fun i => decide (x i c < v)).length := by omega
      have ht := (take_sorted x c v l h).1
      rw [hf] at ht
      have hmem : l.getD (k - 1) 0 ∈ l.dropLast.filter fun i => decide (x i c < v) := by
        have hkl : k - 1 < l.length := by
          have := (List.filter_sublist (p := fun i => decide (x i c < v)) (l := l)).length_le
          rw [hf] at this
          omega
        rw [← ht, List.mem_take_iff_getElem]
        refine ⟨k - 1, by omega, ?_⟩
        rw [List.getD_eq_getElem?_getD, List.getElem?_eq_getElem hkl, Option.getD_some]
      simpa using (List.mem_filter.1 hmem).2
  · rw [List.any_eq_true]
    rintro ⟨i, hi, hb⟩
    rw [List.mem_filter] at hi
    simp [hb] at hi

end Verif.KdTree
