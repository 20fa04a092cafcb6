import Verif.KdTree.BuildProps
import Verif.Search.Lemmas
import Mathlib.Tactic.IntervalCases

/-! C169, C170, C171, C173: queries of the k-d tree. -/

noncomputable section

namespace Verif.KdTree

open Verif Verif.Mech
open scoped Classical

variable {rnd : ℝ → ℝ} {x : Nat → V3} {n : Nat}

theorem parabola_bounded : Bounded parabola 100 1e300 := by
  intro i hi c
  have h1 : (i : ℝ) < 100 := by exact_mod_cast hi
  have h2 : (0 : ℝ) ≤ i := Nat.cast_nonneg i
  fin_cases c <;> simp [parabola] <;> constructor <;> nlinarith

theorem parabola_tree : ∃ T, getTree sorter (fun v => v) parabola 100 = .ok T :=
  C172_defined sorter_sorts (fair_id _ _) (separating_id _ _) (parabola_distinct _)

/-! ### C170 -/

theorem around_contains (c : V3) (h : ℝ) (p : V3) : (Range.around c h).contains p ↔ ∀ a, |p a - c a| ≤ h := by
  rw [contains_iff]
  refine forall_congr' fun a => ?_
  rw [around_low, around_high, abs_le]
  constructor <;> rintro ⟨h1, h2⟩ <;> constructor <;> linarith

/-- The search of a cube returns the ids of the points in the closed cube, each once. -/
theorem C170_cube {S : Sorter} (hS : Sorts S) (f : Fair rnd x n) {T : Tree} (hT : getTree S rnd x n = .ok T) {big : ℝ}
    (hb : Bounded x n big) (center : V3) (h : ℝ) :
    ∃ nb, neighborsCube T big center h = .ok nb ∧ nb.Nodup ∧
      ∀ i, i ∈ nb ↔ i < n ∧ ∀ c, |x i c - center c| ≤ h := by
  obtain ⟨h1, h2, -, h4⟩ := getTree_spec hS f hT
  rw [neighborsCube, h1, h2]
  by_cases e0 : n = 0
  · subst e0
    exact ⟨[], by rw [if_pos rfl], List.nodup_nil, fun i => by simp⟩
  rw [if_neg e0]
  by_cases e1 : n = 1
  · subst e1
    rw [if_pos rfl]
    by_cases hc : (Range.around center h).contains (x 0)
    · rw [if_pos hc]
      refine ⟨[0], rfl, by simp, fun i => ?_⟩
      rw [around_contains] at hc
      rw [List.mem_singleton]
      constructor
      · rintro rfl; exact ⟨by omega, hc⟩
      · rintro ⟨hi, -⟩; omega
    · rw [if_neg hc]
      refine ⟨[], rfl, List.nodup_nil, fun i => ?_⟩
      rw [around_contains] at hc
      simp only [List.not_mem_nil, false_iff]
      rintro ⟨hi, hh⟩
      have : i = 0 := by omega
      subst this
      exact hc hh
  rw [if_neg e1]
  obtain ⟨ids, hp, hs⟩ := h4 (by omega)
  have hbox : ∀ i ∈ ids, (Range.largest big).contains (x i) := by
    intro i hi
    rw [contains_iff]
    exact hb i (List.mem_range.1 (hp.mem_iff.1 hi))
  rw [search_eq _ hs _ _ hbox]
  refine ⟨_, rfl, ?_, ?_⟩
  · exact (hp.nodup_iff.2 List.nodup_range).filter _
  · intro i
    rw [List.nil_append, List.mem_filter, hp.mem_iff, List.mem_range, decide_eq_true_eq, around_contains]

example : ∃ T nb, getTree sorter (fun v => v) parabola 100 = .ok T ∧ neighborsCube T 1e300 ![4, 2, 3] 3 = .ok nb ∧
    2 ∈ nb ∧ 1 ∈ nb ∧ 0 ∉ nb := by
  obtain ⟨T, hT⟩ := parabola_tree
  obtain ⟨nb, h1, -, h3⟩ := C170_cube sorter_sorts (fair_id _ _) hT parabola_bounded ![4, 2, 3] 3
  refine ⟨T, nb, hT, h1, (h3 2).2 ⟨by omega, ?_⟩, (h3 1).2 ⟨by omega, ?_⟩, fun h => ?_⟩
  · intro c; fin_cases c <;> simp [parabola] <;> norm_num
  · intro c; fin_cases c <;> simp [parabola] <;> norm_num [abs_le]
  · have := ((h3 0).1 h).2 0
    simp [parabola] at this
    norm_num at this

/-! ### C169 -/

theorem distSq_nonneg (p q : V3) : 0 ≤ distSq p q := by
  rw [distSq]
  nlinarith [sq_nonneg (p 0 - q 0), sq_nonneg (p 1 - q 1), sq_nonneg (p 2 - q 2)]

theorem distance_eq (p q : V3) : distance p q = Real.sqrt (distSq p q) := by
  rw [distance, distSq, Fin.sum_univ_three]
  congr 1
  ring

theorem distance_le {p q : V3} {R : ℝ} (hR : 0 ≤ R) : distance p q ≤ R ↔ distSq p q ≤ R * R := by
  rw [distance_eq, Real.sqrt_le_left hR, sq]

theorem sphere_test {p c : V3} {R : ℝ} (hR : 0 ≤ R) :
    ((Range.around c (2 * R / Real.sqrt 3 / 2)).contains p ∨ distSq c p ≤ R * R) ↔ distance p c ≤ R := by
  rw [distance_le hR, distSq_comm c p]
  constructor
  · rintro (h | h)
    · rw [around_contains] at h
      have h3 : (0 : ℝ) < Real.sqrt 3 := Real.sqrt_pos.2 (by norm_num)
      have hsq : Real.sqrt 3 ^ 2 = 3 := Real.sq_sqrt (by norm_num)
      have hq : (2 * R / Real.sqrt 3 / 2) ^ 2 = R * R / 3 := by
        have : 2 * R / Real.sqrt 3 / 2 = R / Real.sqrt 3 := by ring
        rw [this, div_pow, hsq, sq]
      have hb : ∀ a, (p a - c a) ^ 2 ≤ R * R / 3 := fun a => by
        rw [← hq, ← sq_abs (p a - c a)]
        exact pow_le_pow_left₀ (abs_nonneg _) (h a) 2
      rw [distSq]
      nlinarith [hb 0, hb 1, hb 2]
    · exact h
  · exact Or.inr

theorem sphere_in_cube {p c : V3} {R : ℝ} (h : distance p c ≤ R) (a : Fin 3) : |p a - c a| ≤ R := by
  have hR : 0 ≤ R := le_trans (by rw [distance_eq]; exact Real.sqrt_nonneg _) h
  rw [distance_le hR] at h
  have := coord_le_distSq p c a
  apply abs_le_of_sq_le_sq _ hR
  rw [sq R]
  linarith

/-- `FindPointsWithinRadius` returns the ids of the points at a distance of at most the radius, each once. -/
theorem C169_within {S : Sorter} (hS : Sorts S) (f : Fair rnd x n) {T : Tree} (hT : getTree S rnd x n = .ok T) {big : ℝ}
    (hb : Bounded x n big) (center : V3) {R : ℝ} (hR : 0 ≤ R) :
    ∃ nb, neighborsWithin T big center R = .ok nb ∧ nb.Nodup ∧ ∀ i, i ∈ nb ↔ i < n ∧ distance (x i) center ≤ R := by
  obtain ⟨h1, h2, -, -⟩ := getTree_spec hS f hT
  obtain ⟨found, e, hn, hm⟩ := C170_cube hS f hT hb center R
  rw [neighborsWithin, e]
  simp only [Outcome.ok_bind, h1, h2]
  have hlen : found.length ≤ n := by
    have hsub : found ⊆ List.range n := fun i hi => List.mem_range.2 ((hm i).1 hi).1
    have := (hn.subperm hsub).length_le
    rwa [List.length_range] at this
  rw [if_neg]
  · refine ⟨_, rfl, hn.filter _, fun i => ?_⟩
    rw [List.mem_filter, decide_eq_true_eq, sphere_test hR, hm]
    exact ⟨fun h => ⟨h.1.1, h.2⟩, fun h => ⟨⟨h.1, fun c => sphere_in_cube h.2 c⟩, h.2⟩⟩
  · have := (List.filter_sublist (p := fun j => decide ((Range.around center (2 * R / Real.sqrt 3 / 2)).contains (x j) ∨
      distSq center (x j) ≤ R * R)) (l := found)).length_le
    omega

example : ∃ T nb, getTree sorter (fun v => v) parabola 100 = .ok T ∧ neighborsWithin T 1e300 ![4, 2, 3] 4 = .ok nb ∧
    1 ∈ nb ∧ 0 ∉ nb := by
  obtain ⟨T, hT⟩ := parabola_tree
  obtain ⟨nb, h1, -, h3⟩ := C169_within sorter_sorts (fair_id _ _) hT parabola_bounded ![4, 2, 3] (R := 4) (by norm_num)
  refine ⟨T, nb, hT, h1, (h3 1).2 ⟨by omega, ?_⟩, fun h => ?_⟩
  · rw [distance_le (by norm_num)]; simp [distSq, parabola]; norm_num
  · have := ((h3 0).1 h).2
    rw [distance_le (by norm_num)] at this
    simp [distSq, parabola] at this
    norm_num at this

/-- With a negative radius nothing is found, not even a point at the center. -/
theorem C169_negative {S : Sorter} (hS : Sorts S) (f : Fair rnd x n) {T : Tree} (hT : getTree S rnd x n = .ok T) {big : ℝ}
    (hb : Bounded x n big) (center : V3) {R : ℝ} (hR : R < 0) : neighborsWithin T big center R = .ok [] := by
  obtain ⟨found, e, hn, hm⟩ := C170_cube hS f hT hb center R
  have : found = [] := by
    rw [List.eq_nil_iff_forall_not_mem]
    intro i hi
    have h := ((hm i).1 hi).2 0
    have := abs_nonneg (x i 0 - center 0)
    linarith
  rw [neighborsWithin, e, this]
  simp

example : ∃ T, getTree sorter (fun v => v) parabola 100 = .ok T ∧ neighborsWithin T 1e300 (parabola 3) (-1) = .ok [] := by
  obtain ⟨T, hT⟩ := parabola_tree
  exact ⟨T, hT, C169_negative sorter_sorts (fair_id _ _) hT parabola_bounded _ (by norm_num)⟩

/-! ### C171 -/

/-- The nearest neighbor search returns a point to which no other one is closer. -/
theorem C171_nearest {S : Sorter} (hS : Sorts S) (f : Fair rnd x n) {T : Tree} (hT : getTree S rnd x n = .ok T) {big : ℝ}
    (hb : Bounded x n big) (hn : 0 < n) (a b c : ℝ) :
    ∃ i < n, nearestNeighbor T big [a, b, c] = .ok i ∧ ∀ j < n, distance (x i) ![a, b, c] ≤ distance (x j) ![a, b, c] := by
  obtain ⟨h1, h2, -, h4⟩ := getTree_spec hS f hT
  rw [nearestNeighbor, if_neg (by simp), h1, h2, if_neg (by omega)]
  by_cases e1 : n = 1
  · subst e1
    refine ⟨0, by omega, by rw [if_pos rfl], fun j hj => ?_⟩
    have : j = 0 := by omega
    rw [this]
  rw [if_neg e1]
  obtain ⟨ids, hp, hs⟩ := h4 (by omega)
  have hbox : ∀ i ∈ ids, (Range.largest big).contains (x i) := by
    intro i hi
    rw [contains_iff]
    exact hb i (List.mem_range.1 (hp.mem_iff.1 hi))
  obtain ⟨i, hi, e, m⟩ := nnSearch_spec ![a, b, c] hs _ hbox
  refine ⟨i, List.mem_range.1 (hp.mem_iff.1 hi), e, fun j hj => ?_⟩
  rw [distance_eq, distance_eq]
  exact Real.sqrt_le_sqrt (m j (hp.mem_iff.2 (List.mem_range.2 hj)))

example : ∃ T, getTree sorter (fun v => v) parabola 100 = .ok T ∧ nearestNeighbor T 1e300 [9, 3, 4] = .ok 3 := by
  obtain ⟨T, hT⟩ := parabola_tree
  obtain ⟨i, hi, e, m⟩ := C171_nearest sorter_sorts (fair_id _ _) hT parabola_bounded (by omega) 9 3 4
  have h3 := m 3 (by omega)
  rw [distance_eq, distance_eq, Real.sqrt_le_sqrt_iff (distSq_nonneg _ _)] at h3
  have : i = 3 := by
    by_contra hne
    have hge : (1 : ℝ) ≤ ((i : ℝ) - 3) * ((i : ℝ) - 3) := by
      rcases Nat.lt_or_gt_of_ne hne with h | h
      · have : (i : ℝ) ≤ 2 := by exact_mod_cast Nat.lt_succ_iff.1 h
        nlinarith
      · have : (4 : ℝ) ≤ i := by exact_mod_cast h
        nlinarith
    have h0 : (0 : ℝ) ≤ i := Nat.cast_nonneg i
    simp [distSq, parabola] at h3
    nlinarith [mul_nonneg h0 h0, sq_nonneg ((i : ℝ) ^ 2 - 9), mul_self_nonneg (((i : ℝ) - 3) * ((i : ℝ) + 3))]
  exact ⟨T, hT, by rw [e, this]⟩

/-- A search point that has not three coordinates, and a tree without points, are refused. -/
theorem C171_refused (T : Tree) (big : ℝ) (s : List ℝ) :
    (s.length ≠ 3 → nearestNeighbor T big s = .fail .domainError) ∧
    (s.length = 3 → T.n = 0 → nearestNeighbor T big s = .fail .invalidArgument) := by
  constructor
  · intro h; rw [nearestNeighbor, if_pos h]
  · intro h h0; rw [nearestNeighbor, if_neg (by simpa using h), if_pos h0]

example : nearestNeighbor ⟨0, parabola, .null, 0⟩ 1e300 [1, 2, 3] = .fail .invalidArgument :=
  (C171_refused _ _ _).2 rfl rfl

/-! ### C173 -/

/-- The two search trees find the same points: what `JAMSearchTree` returns is a rearrangement of what
`ZoltanSearchTree` returns. -/
theorem C173_same {S : Sorter} (hS : Sorts S) {xs : List V3} (f : Fair rnd (fun i => xs.getD i 0) xs.length) {T : Tree}
    (hT : getTree S rnd (fun i => xs.getD i 0) xs.length = .ok T) {big : ℝ}
    (hb : Bounded (fun i => xs.getD i 0) xs.length big) {Z : Verif.Search.Zoltan} {y : Nat → V3} {ranks : List (List Nat)}
    (hZ : Z.Complete y ranks) (center : V3) {R : ℝ} (hR : 0 ≤ R) :
    ∃ nb, neighborsWithin T big center R = .ok nb ∧ nb.Perm (Verif.Search.findPointsWithinRadius Z xs center R) := by
  obtain ⟨nb, e, hn, hm⟩ := C169_within hS f hT hb center hR
  refine ⟨nb, e, (List.perm_ext_iff_of_nodup hn ?_).2 fun i => ?_⟩
  · rw [Verif.Search.findPointsWithinRadius]
    exact (hZ.partNodup _ _ _).filter _
  · rw [hm, Verif.Search.mem_find hZ xs center hR]
    have hd : ∀ X, distance X center = len (X - center) := by
      intro X
      rw [distance_eq, distSq, len]
      rfl
    constructor
    · rintro ⟨hi, hd'⟩
      refine ⟨xs[i], List.getElem?_eq_getElem hi, ?_⟩
      rw [← hd]
      rwa [List.getD_eq_getElem?_getD, List.getElem?_eq_getElem hi] at hd'
    · rintro ⟨X, hX, hd'⟩
      obtain ⟨hi, he⟩ := List.getElem?_eq_some_iff.1 hX
      refine ⟨hi, ?_⟩
      rw [hd, List.getD_eq_getElem?_getD, hX]
      exact hd'

/-- Zoltan queries that name everything. -/
def everything : Verif.Search.Zoltan := ⟨fun _ _ => [], fun xs _ _ => List.range xs.length⟩

theorem everything_complete (y : Nat → V3) : everything.Complete y [] where
  boxNodup := fun _ _ => List.nodup_nil
  box := fun _ _ r own g h => by simp at h
  partNodup := fun _ _ _ => List.nodup_range
  partBound := fun _ _ _ i hi => List.mem_range.1 hi
  part := fun xs _ _ i X h _ => List.mem_range.2 (List.getElem?_eq_some_iff.1 h).1

/-- Points on the third axis. -/
def column : List V3 := [![0, 0, 5], ![0, 0, 1], ![0, 0, 2]]

example : ∃ T nb, getTree sorter (fun v => v) (fun i => column.getD i 0) 3 = .ok T ∧
    neighborsWithin T 1e300 ![0, 0, 1] 2 = .ok nb ∧
    nb.Perm (Verif.Search.findPointsWithinRadius everything column ![0, 0, 1] 2) := by
  have hd : Distinct (fun i => column.getD i 0) 3 := by
    intro i hi j hj h
    have h2 := congrFun h 2
    interval_cases i <;> interval_cases j <;> simp [column] at h2 ⊢
  have hb : Bounded (fun i => column.getD i 0) 3 1e300 := by
    intro i hi c
    interval_cases i <;> fin_cases c <;> simp [column] <;> norm_num
  obtain ⟨T, hT⟩ := C172_defined sorter_sorts (fair_id _ _) (separating_id _ _) hd
  obtain ⟨nb, h1, h2⟩ := C173_same sorter_sorts (xs := column) (fair_id _ _) hT hb (everything_complete fun _ => 0)
    ![0, 0, 1] (R := 2) (by norm_num)
  exact ⟨T, nb, hT, h1, h2⟩

/-- With two points at the same place the trees cannot be exchanged: one of them finds both, the other one is not
built. -/
theorem C173_coincident_fails {S : Sorter} (hS : Sorts S) {xs : List V3} (f : Fair rnd (fun i => xs.getD i 0) xs.length)
    {i j : Nat} {X : V3} (hij : i ≠ j) (hi : xs[i]? = some X) (hj : xs[j]? = some X) {Z : Verif.Search.Zoltan} {y : Nat → V3}
    {ranks : List (List Nat)} (hZ : Z.Complete y ranks) {R : ℝ} (hR : 0 ≤ R) :
    getTree S rnd (fun i => xs.getD i 0) xs.length = .ub ∧
    i ∈ Verif.Search.findPointsWithinRadius Z xs X R ∧ j ∈ Verif.Search.findPointsWithinRadius Z xs X R := by
  have h0 : len (X - X) ≤ R := by simpa [len] using hR
  refine ⟨?_, (Verif.Search.mem_find hZ xs X hR i).2 ⟨X, hi, h0⟩, (Verif.Search.mem_find hZ xs X hR j).2 ⟨X, hj, h0⟩⟩
  refine C172_coincident_fails hS f (List.getElem?_eq_some_iff.1 hi).1 (List.getElem?_eq_some_iff.1 hj).1 hij ?_
  rw [List.getD_eq_getElem?_getD, List.getD_eq_getElem?_getD, hi, hj]

example : getTree sorter (fun v => v) (fun i => [(![1, 2, 3] : V3), ![0, 0, 0], ![1, 2, 3]].getD i 0) 3 = .ub :=
  (C173_coincident_fails sorter_sorts (xs := [(![1, 2, 3] : V3), ![0, 0, 0], ![1, 2, 3]]) (fair_id _ _) (i := 0) (j := 2)
    (by omega) rfl rfl (everything_complete fun _ => 0) (R := 1) (by norm_num)).1

end Verif.KdTree
