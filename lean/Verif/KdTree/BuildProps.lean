import Verif.KdTree.QueryLemmas
import Mathlib.Data.List.Sort
import Mathlib.Tactic.NormNum

/-! C172: construction of the k-d tree. -/

noncomputable section

namespace Verif.KdTree

open Verif Verif.Mech
open scoped Classical

variable {rnd : ℝ → ℝ} {x : Nat → V3} {n : Nat}

/-! ### Cases -/

/-- A sorting function. -/
def sorter : Sorter := fun f l => l.insertionSort fun i j => f i ≤ f j

theorem sorter_sorts : Sorts sorter := by
  intro f l
  refine ⟨List.perm_insertionSort _ _, ?_⟩
  have : IsTrans Nat fun i j => f i ≤ f j := ⟨fun _ _ _ => le_trans⟩
  have : Std.Total fun i j : Nat => f i ≤ f j := ⟨fun i j => le_total (f i) (f j)⟩
  exact List.pairwise_insertionSort _ _

theorem fair_id (x : Nat → V3) (n : Nat) : Fair (fun v => v) x n where
  nonneg := fun _ _ _ _ _ h => sub_nonneg.2 h
  le := fun i _ j _ c h => by rw [middle]; linarith

theorem separating_id (x : Nat → V3) (n : Nat) : Separating (fun v => v) x n where
  zero := rfl
  pos := fun _ _ _ _ _ h => sub_pos.2 h
  above := fun i _ j _ c h => by rw [middle]; linarith

/-- Points on a parabola. -/
def parabola : Nat → V3 := fun i => ![(i : ℝ) ^ 2, (i : ℝ), 3]

theorem parabola_distinct (n : Nat) : Distinct parabola n := by
  intro i _ j _ h
  have := congrFun h 1
  simpa [parabola] using this

/-- The first two points coincide. -/
def doubled : Nat → V3 := fun i => ![((i - 1 : ℕ) : ℝ), 0, 0]

/-- Two neighboring double precision numbers as first coordinates. -/
def adjacent : Nat → V3 := fun i => if i = 0 then ![1, 0, 0] else ![1 + (1 / 2) ^ 52, 0, 0]

theorem good_sorted {S : Sorter} (hS : Sorts S) (x : Nat → V3) (n : Nat) :
    Good x n fun c => S (fun i => x i c) (List.range n) where
  sorted := fun _ => (hS _ _).2
  perm := fun _ => (hS _ _).1.trans (hS _ _).1.symm
  bound := fun _ hi => List.mem_range.1 ((hS _ _).1.mem_iff.1 hi)
  nodup := (hS _ _).1.nodup_iff.2 List.nodup_range

theorem adjacent_fair {rnd : ℝ → ℝ} (h0 : rnd 0 = 0) (h1 : rnd 1 = 1) (h2 : rnd (1 + (1 / 2) ^ 52) = 1 + (1 / 2) ^ 52)
    (h3 : rnd ((1 / 2) ^ 52) = (1 / 2) ^ 52) (h4 : rnd ((1 / 2) ^ 52 / 2) = (1 / 2) ^ 52 / 2)
    (h5 : rnd (1 + (1 / 2) ^ 52 / 2) = 1) : Fair rnd adjacent 2 := by
  have two : ∀ k : Nat, k < 2 → k = 0 ∨ k = 1 := by omega
  have e0 : (0 : ℝ) < (1 / 2) ^ 52 := by positivity
  generalize he : ((1 / 2) ^ 52 : ℝ) = e at h2 h3 h4 h5 e0
  have a0 : adjacent 0 = ![1, 0, 0] := rfl
  have a1 : adjacent 1 = ![1 + e, 0, 0] := by rw [← he]; rfl
  constructor
  · intro i hi j hj c h
    rcases two i hi with rfl | rfl <;> rcases two j hj with rfl | rfl <;> fin_cases c <;>
      simp [a0, a1, h0, h3] at h ⊢ <;> linarith
  · intro i hi j hj c h
    rcases two i hi with rfl | rfl <;> rcases two j hj with rfl | rfl <;> fin_cases c <;>
      simp [a0, a1, h0, h1, h2, h3, h4, h5, middle] at h ⊢ <;> linarith

/-! ### C172 -/

/-- The construction succeeds for points that are pairwise different, if the rounding keeps coordinates that are
different apart. -/
theorem C172_defined {S : Sorter} (hS : Sorts S) (f : Fair rnd x n) (s : Separating rnd x n) (d : Distinct x n) :
    ∃ T, getTree S rnd x n = .ok T := by
  rw [getTree]
  split
  · exact ⟨_, rfl⟩
  · split
    · exact ⟨_, rfl⟩
    · have hlen : (S (fun i => x i 0) (List.range n)).length = n := by
        rw [(hS _ _).1.length_eq, List.length_range]
      obtain ⟨r, hr⟩ := makeTree_defined f s d (2 * n - 1) (2 * n) (fun c => S (fun i => x i c) (List.range n)) 0
        (good_sorted hS x n) (by change 2 ≤ (S _ _).length; omega) (by change (S _ _).length ≤ _; omega)
        (by change 0 + 2 * (S _ _).length ≤ _; omega)
      rw [hr]
      exact ⟨_, rfl⟩

example : ∃ T, getTree sorter (fun v => v) parabola 1000 = .ok T :=
  C172_defined sorter_sorts (fair_id _ _) (separating_id _ _) (parabola_distinct _)

/-- If the construction succeeds, the tree has `2n - 1` nodes, as many as there is room for, and every point is in
exactly one leaf. -/
theorem C172_nodes {S : Sorter} (hS : Sorts S) (f : Fair rnd x n) {T : Tree} (h : getTree S rnd x n = .ok T) :
    T.nodes = 2 * n - 1 ∧ (0 < n → ∃ ids, report T.root [] = .ok ids ∧ ids.Perm (List.range n)) := by
  obtain ⟨-, -, h3, h4⟩ := getTree_spec hS f h
  refine ⟨h3, fun hn => ?_⟩
  by_cases h2 : 2 ≤ n
  · obtain ⟨ids, hp, hs⟩ := h4 h2
    exact ⟨ids, by rw [report_eq hs, List.nil_append], hp⟩
  · have h1 : n = 1 := by omega
    subst h1
    rw [getTree, if_neg (by omega), if_pos rfl] at h
    cases h
    exact ⟨[0], by rw [report]; rfl, by simp⟩

example : ∃ T, getTree sorter (fun v => v) parabola 1000 = .ok T ∧ T.nodes = 1999 := by
  obtain ⟨T, h⟩ := C172_defined sorter_sorts (fair_id _ _) (separating_id _ _) (parabola_distinct 1000)
  exact ⟨T, h, (C172_nodes sorter_sorts (fair_id _ _) h).1⟩

/-- Two points with the same coordinates: the recursion does not end before the array of nodes is exceeded. -/
theorem C172_coincident_fails {S : Sorter} (hS : Sorts S) (f : Fair rnd x n) {i j : Nat} (hi : i < n) (hj : j < n)
    (hij : i ≠ j) (hx : x i = x j) : getTree S rnd x n = .ub := by
  rw [getTree, if_neg (by omega), if_neg (by omega)]
  have g := good_sorted hS x n
  have mem : ∀ k < n, k ∈ S (fun i => x i 0) (List.range n) := fun k hk =>
    (hS _ _).1.mem_iff.2 (List.mem_range.2 hk)
  generalize hr : makeTree rnd x (2 * n - 1) (2 * n) (fun c => S (fun i => x i c) (List.range n)) 0 = r
  cases r with
  | ok r => exact absurd hr (makeTree_coincident f _ hij hx _ _ _ r g (mem i hi) (mem j hj))
  | fail e => exact absurd hr (makeTree_not_fail f _ e _ _ _ g)
  | ub => rfl

example : getTree sorter (fun v => v) doubled 7 = .ub :=
  C172_coincident_fails sorter_sorts (fair_id _ _) (i := 0) (j := 1) (by omega) (by omega) (by omega) (by simp [doubled])

/-- In exact arithmetic the construction succeeds exactly if no two points coincide. -/
theorem C172_iff {S : Sorter} (hS : Sorts S) (x : Nat → V3) (n : Nat) :
    (∃ T, getTree S (fun v => v) x n = .ok T) ↔ Distinct x n := by
  constructor
  · rintro ⟨T, h⟩ i hi j hj hx
    by_contra hij
    rw [C172_coincident_fails hS (fair_id x n) hi hj hij hx] at h
    cases h
  · exact C172_defined hS (fair_id x n) (separating_id x n)

example : (∃ T, getTree sorter (fun v => v) parabola 5 = .ok T) ∧ ¬ ∃ T, getTree sorter (fun v => v) doubled 5 = .ok T := by
  rw [C172_iff sorter_sorts, C172_iff sorter_sorts]
  refine ⟨parabola_distinct 5, fun h => ?_⟩
  have := h 0 (by omega) 1 (by omega) (by simp [doubled])
  omega

/-- Two different points that differ in one coordinate only, whose middle is rounded to the smaller one: the
construction fails although the points are different. -/
theorem C172_adjacent_fails {S : Sorter} (hS : Sorts S) (f : Fair rnd x 2) (h0 : rnd 0 = 0) {c : Fin 3}
    (hx : ∀ d, d ≠ c → x 0 d = x 1 d) (hlt : x 0 c < x 1 c) (hd : 0 < rnd (x 1 c - x 0 c))
    (hm : middle rnd (x 0 c) (x 1 c) = x 0 c) : getTree S rnd x 2 = .ub := by
  have g := good_sorted hS x 2
  rw [getTree, if_neg (by omega), if_neg (by omega)]
  set p : Fin 3 → List Nat := fun c => S (fun i => x i c) (List.range 2) with hp
  have mem : ∀ d, ∀ k < 2, k ∈ p d := fun d k hk => (hS _ _).1.mem_iff.2 (List.mem_range.2 hk)
  have hlen : (p 0).length = 2 := by rw [hp]; simp [(hS _ _).1.length_eq]
  have hne : p 0 ≠ [] := List.ne_nil_of_mem (mem 0 0 (by omega))
  obtain ⟨m, hmed, sp⟩ := findMedian_spec f g hne
  have two : ∀ k : Nat, k < 2 → k = 0 ∨ k = 1 := by omega
  have ends : ∀ d, firstValue x d (p d) ≤ x 0 d ∧ firstValue x d (p d) ≤ x 1 d ∧ x 0 d ≤ lastValue x d (p d) ∧
      x 1 d ≤ lastValue x d (p d) := fun d =>
    ⟨(sorted_ends x d _ (g.sorted d) 0 (mem d 0 (by omega))).1, (sorted_ends x d _ (g.sorted d) 1 (mem d 1 (by omega))).1,
      (sorted_ends x d _ (g.sorted d) 0 (mem d 0 (by omega))).2, (sorted_ends x d _ (g.sorted d) 1 (mem d 1 (by omega))).2⟩
  have hF : ∀ d, firstValue x d (p d) = x 0 d ∨ firstValue x d (p d) = x 1 d := by
    intro d
    rcases two _ (g.lt (headD_mem (g.ne_nil hne d))) with h | h <;> rw [firstValue, h]
    · exact .inl rfl
    · exact .inr rfl
  have hL : ∀ d, lastValue x d (p d) = x 0 d ∨ lastValue x d (p d) = x 1 d := by
    intro d
    rcases two _ (g.lt (getLastD_mem (g.ne_nil hne d))) with h | h <;> rw [lastValue, h]
    · exact .inl rfl
    · exact .inr rfl
  have hFc : firstValue x c (p c) = x 0 c := by
    rcases hF c with h | h
    · exact h
    · have := (ends c).1; linarith
  have hLc : lastValue x c (p c) = x 1 c := by
    rcases hL c with h | h
    · have := (ends c).2.2.2; linarith
    · exact h
  have hax : m.axis = c := by
    by_contra hno
    have hw := sp.widest c
    have e := hx m.axis hno
    have h1 : firstValue x m.axis (p m.axis) = x 0 m.axis := by
      rcases hF m.axis with h | h
      · exact h
      · rw [h, e]
    have h2 : lastValue x m.axis (p m.axis) = x 0 m.axis := by
      rcases hL m.axis with h | h
      · exact h
      · rw [h, e]
    rw [h1, h2, sub_self, h0, hFc, hLc] at hw
    linarith
  have hcut := sp.cut
  rw [hax, hFc, hLc, hm] at hcut
  have hl : ((p 0).filter fun i => decide (x i m.axis < m.cut)) = [] := by
    rw [List.filter_eq_nil_iff]
    intro i hi hb
    rw [hax, hcut, decide_eq_true_eq] at hb
    rcases two i (g.bound i hi) with rfl | rfl <;> linarith
  rw [makeTree_stuck f g (by change 2 ≤ (p 0).length; omega) hmed hl]
  rfl

/-- In double precision `1` and `1 + 2⁻⁵²` are neighbors, and the number in the middle is rounded to `1`, whose last
bit is even: of two points with these first coordinates no tree is built. -/
theorem C172_double_fails {S : Sorter} (hS : Sorts S) (h0 : rnd 0 = 0) (h1 : rnd 1 = 1)
    (h2 : rnd (1 + (1 / 2) ^ 52) = 1 + (1 / 2) ^ 52) (h3 : rnd ((1 / 2) ^ 52) = (1 / 2) ^ 52)
    (h4 : rnd ((1 / 2) ^ 52 / 2) = (1 / 2) ^ 52 / 2) (h5 : rnd (1 + (1 / 2) ^ 52 / 2) = 1) :
    adjacent 0 ≠ adjacent 1 ∧ getTree S rnd adjacent 2 = .ub := by
  have e0 : (0 : ℝ) < (1 / 2) ^ 52 := by positivity
  have f := adjacent_fair h0 h1 h2 h3 h4 h5
  generalize he : ((1 / 2) ^ 52 : ℝ) = e at h2 h3 h4 h5 e0
  have a0 : adjacent 0 = ![1, 0, 0] := rfl
  have a1 : adjacent 1 = ![1 + e, 0, 0] := by rw [← he]; rfl
  constructor
  · intro h
    have := congrFun h 0
    simp [a0, a1] at this
    linarith
  · refine C172_adjacent_fails hS f h0 (c := 0) ?_ ?_ ?_ ?_
    · intro d hd
      fin_cases d
      · exact absurd rfl hd
      · simp [a0, a1]
      · simp [a0, a1]
    · simp [a0, a1, e0]
    · simp [a0, a1, h3, e0]
    · simp [a0, a1, middle, h3, h4, h5]

example : getTree sorter (fun v => if v = 1 + (1 / 2) ^ 52 / 2 then 1 else v) adjacent 2 = .ub := by
  refine (C172_double_fails sorter_sorts ?_ ?_ ?_ ?_ ?_ ?_).2 <;> norm_num

end Verif.KdTree
