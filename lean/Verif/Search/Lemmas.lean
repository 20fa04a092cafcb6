import Verif.Search.Spec
import Verif.Filter.Props

/-! Lemmas for C15. -/

noncomputable section

namespace Verif.Search

open Verif Verif.Mech Verif.Filter
open scoped Classical

/-! ### Frame set -/

theorem mem_sortedMap {xs : List V3} {c : Fin 3} {i : Nat} : i ∈ sortedMap xs c ↔ i < xs.length := by
  simp [sortedMap]

instance (xs : List V3) (c : Fin 3) : Std.Total (fun i j : Nat => (xs.getD i 0) c ≤ (xs.getD j 0) c) :=
  ⟨fun _ _ => le_total _ _⟩

instance (xs : List V3) (c : Fin 3) : IsTrans Nat (fun i j : Nat => (xs.getD i 0) c ≤ (xs.getD j 0) c) :=
  ⟨fun _ _ _ h1 h2 => le_trans h1 h2⟩

theorem sortedMap_sorted (xs : List V3) (c : Fin 3) :
    (sortedMap xs c).Pairwise (fun i j => (xs.getD i 0) c ≤ (xs.getD j 0) c) :=
  List.pairwise_insertionSort _ _

theorem mem_takeWhile_of_sorted {f : Nat → ℝ} {l : List Nat} (h : l.Pairwise (fun i j => f i ≤ f j)) (v : ℝ)
    (i : Nat) : i ∈ l.takeWhile (fun i => decide (f i ≤ v)) ↔ i ∈ l ∧ f i ≤ v := by
  induction l with
  | nil => simp
  | cons a l ih =>
    rw [List.pairwise_cons] at h
    rw [List.takeWhile_cons]
    by_cases ha : f a ≤ v
    · simp only [ha, decide_true, if_true, List.mem_cons, ih h.2]
      constructor
      · rintro (rfl | ⟨h1, h2⟩)
        · exact ⟨Or.inl rfl, ha⟩
        · exact ⟨Or.inr h1, h2⟩
      · rintro ⟨rfl | h1, h2⟩
        · exact Or.inl rfl
        · exact Or.inr ⟨h1, h2⟩
    · simp only [ha, decide_false, Bool.false_eq_true, if_false, List.not_mem_nil, false_iff, List.mem_cons]
      rintro ⟨rfl | h1, h2⟩
      · exact ha h2
      · exact ha (le_trans (h.1 i h1) h2)

theorem mem_dropWhile_of_sorted {f : Nat → ℝ} {l : List Nat} (h : l.Pairwise (fun i j => f i ≤ f j)) (v : ℝ)
    (i : Nat) : i ∈ l.dropWhile (fun i => decide (f i ≤ v)) ↔ i ∈ l ∧ v < f i := by
  induction l with
  | nil => simp
  | cons a l ih =>
    rw [List.pairwise_cons] at h
    rw [List.dropWhile_cons]
    by_cases ha : f a ≤ v
    · simp only [ha, decide_true, if_true, List.mem_cons, ih h.2]
      constructor
      · rintro ⟨h1, h2⟩
        exact ⟨Or.inr h1, h2⟩
      · rintro ⟨rfl | h1, h2⟩
        · exact absurd ha (not_le.mpr h2)
        · exact ⟨h1, h2⟩
    · simp only [ha, decide_false, Bool.false_eq_true, if_false, List.mem_cons]
      constructor
      · rintro (rfl | h1)
        · exact ⟨Or.inl rfl, not_le.mp ha⟩
        · exact ⟨Or.inr h1, lt_of_lt_of_le (not_le.mp ha) (h.1 i h1)⟩
      · rintro ⟨h1, _⟩
        exact h1

/-- Which local ids an axis contributes to the frame set. -/
theorem mem_frameAxis {xs : List V3} (hne : xs ≠ []) (H : ℝ) (c : Fin 3) :
    ∃ fr lo hi, frameAxis xs H c = .ok fr ∧
      (∃ j, j < xs.length ∧ lo = (xs.getD j 0) c) ∧ (∀ j, j < xs.length → lo ≤ (xs.getD j 0) c) ∧
      (∃ j, j < xs.length ∧ hi = (xs.getD j 0) c) ∧ (∀ j, j < xs.length → (xs.getD j 0) c ≤ hi) ∧
      ∀ i, i ∈ fr ↔ i < xs.length ∧ ((xs.getD i 0) c ≤ lo + H ∨ hi - H < (xs.getD i 0) c) := by
  have hs := sortedMap_sorted xs c
  have hlen : (sortedMap xs c).length = xs.length := by simp [sortedMap]
  have hmne : sortedMap xs c ≠ [] := by
    intro h
    rw [h] at hlen
    exact hne (List.length_eq_zero_iff.mp hlen.symm)
  obtain ⟨a, l, hal⟩ := List.exists_cons_of_ne_nil hmne
  have hmem : ∀ i, i ∈ sortedMap xs c ↔ i < xs.length := fun i => mem_sortedMap
  have hhead : (sortedMap xs c).head? = some a := by rw [hal]; rfl
  have hlast : (sortedMap xs c).getLast? = some ((sortedMap xs c).getLast hmne) := List.getLast?_eq_some_getLast hmne
  have hamin : ∀ j, j < xs.length → (xs.getD a 0) c ≤ (xs.getD j 0) c := by
    intro j hj
    rw [← hmem, hal] at hj
    rw [hal, List.pairwise_cons] at hs
    rcases List.mem_cons.mp hj with rfl | hj
    · exact le_refl _
    · exact hs.1 j hj
  have hamem : a < xs.length := by rw [← hmem, hal]; exact List.mem_cons_self
  generalize hb : (sortedMap xs c).getLast hmne = b at hlast
  have hbmem : b < xs.length := by rw [← hmem, ← hb]; exact List.getLast_mem hmne
  have hbmax : ∀ j, j < xs.length → (xs.getD j 0) c ≤ (xs.getD b 0) c := by
    intro j hj
    rw [← hmem] at hj
    have hsplit := List.dropLast_append_getLast hmne
    rw [hb] at hsplit
    rw [← hsplit] at hs hj
    rw [List.pairwise_append] at hs
    rcases List.mem_append.mp hj with hj | hj
    · exact hs.2.2 j hj b (List.mem_singleton.mpr rfl)
    · rw [List.mem_singleton.mp hj]
  refine ⟨(sortedMap xs c).takeWhile (fun i => decide ((xs.getD i 0) c ≤ (xs.getD a 0) c + H)) ++
      (sortedMap xs c).dropWhile (fun i => decide ((xs.getD i 0) c ≤ (xs.getD b 0) c - H)),
    (xs.getD a 0) c, (xs.getD b 0) c, ?_, ⟨a, hamem, rfl⟩, hamin, ⟨b, hbmem, rfl⟩, hbmax, ?_⟩
  · unfold frameAxis
    simp only [hhead, hlast]
  · intro i
    rw [List.mem_append, mem_takeWhile_of_sorted (f := fun i => (xs.getD i 0) c) hs,
      mem_dropWhile_of_sorted (f := fun i => (xs.getD i 0) c) hs, hmem]
    tauto

/-- The frame set: the points within `H` of a face of the bounding box of the owned points. -/
theorem mem_frameSet {xs : List V3} (hne : xs ≠ []) (H : ℝ) :
    ∃ fr, constructFrameSet xs H = .ok fr ∧ fr.Nodup ∧
      ∃ lo hi : Fin 3 → ℝ,
        (∀ c, (∃ j, j < xs.length ∧ lo c = (xs.getD j 0) c) ∧ (∀ j, j < xs.length → lo c ≤ (xs.getD j 0) c) ∧
          (∃ j, j < xs.length ∧ hi c = (xs.getD j 0) c) ∧ (∀ j, j < xs.length → (xs.getD j 0) c ≤ hi c)) ∧
        ∀ i, i ∈ fr ↔ i < xs.length ∧ ∃ c, ((xs.getD i 0) c ≤ lo c + H ∨ hi c - H < (xs.getD i 0) c) := by
  obtain ⟨f0, l0, u0, e0, p0, q0, r0, s0, m0⟩ := mem_frameAxis hne H 0
  obtain ⟨f1, l1, u1, e1, p1, q1, r1, s1, m1⟩ := mem_frameAxis hne H 1
  obtain ⟨f2, l2, u2, e2, p2, q2, r2, s2, m2⟩ := mem_frameAxis hne H 2
  refine ⟨sortUnique (f0 ++ f1 ++ f2), ?_, nodup_sortUnique _, ![l0, l1, l2], ![u0, u1, u2], ?_, ?_⟩
  · simp only [constructFrameSet, e0, e1, e2]
  · intro c
    fin_cases c
    · exact ⟨p0, q0, r0, s0⟩
    · exact ⟨p1, q1, r1, s1⟩
    · exact ⟨p2, q2, r2, s2⟩
  · intro i
    rw [mem_sortUnique, List.mem_append, List.mem_append, m0, m1, m2]
    constructor
    · rintro ((⟨h, h'⟩ | ⟨h, h'⟩) | ⟨h, h'⟩)
      · exact ⟨h, 0, h'⟩
      · exact ⟨h, 1, h'⟩
      · exact ⟨h, 2, h'⟩
    · rintro ⟨h, c, h'⟩
      fin_cases c
      · exact Or.inl (Or.inl ⟨h, h'⟩)
      · exact Or.inl (Or.inr ⟨h, h'⟩)
      · exact Or.inr ⟨h, h'⟩

theorem le_foldl_max (hs : List ℝ) (m : ℝ) : m ≤ hs.foldl (fun m h => if h > m then h else m) m := by
  induction hs generalizing m with
  | nil => exact le_refl _
  | cons a l ih =>
    simp only [List.foldl_cons]
    refine le_trans ?_ (ih _)
    split <;> linarith

theorem le_maxHorizon {hs : List ℝ} {h : ℝ} (hm : h ∈ hs) : h ≤ maxHorizon hs := by
  unfold maxHorizon
  generalize (0 : ℝ) = m
  induction hs generalizing m with
  | nil => simp at hm
  | cons a l ih =>
    simp only [List.foldl_cons]
    rcases List.mem_cons.mp hm with rfl | hm
    · refine le_trans ?_ (le_foldl_max l _)
      split <;> linarith
    · exact ih hm _

/-! ### Distances -/

theorem abs_coord_le_len (d : V3) (c : Fin 3) : |d c| ≤ len d := by
  unfold len
  apply Real.abs_le_sqrt
  fin_cases c <;> simp only [Fin.zero_eta, Fin.mk_one, Fin.reduceFinMk] <;>
    nlinarith [mul_self_nonneg (d 0), mul_self_nonneg (d 1), mul_self_nonneg (d 2)]

theorem len_sub_comm (u w : V3) : len (u - w) = len (w - u) := by
  unfold len
  congr 1
  simp only [Pi.sub_apply]
  ring

theorem within_iff {u w : V3} {R : ℝ} (hR : 0 ≤ R) :
    (u 0 - w 0) * (u 0 - w 0) + (u 1 - w 1) * (u 1 - w 1) + (u 2 - w 2) * (u 2 - w 2) ≤ R * R ↔
      len (u - w) ≤ R := by
  unfold len
  rw [Real.sqrt_le_left hR, pow_two]
  rfl

theorem inBox_of_len {p X : V3} {R : ℝ} (h : len (X - p) ≤ R) : InBox (boxLo p R) (boxHi p R) X := by
  intro c
  have h1 := le_trans (abs_coord_le_len (X - p) c) h
  rw [abs_le] at h1
  simp only [Pi.sub_apply] at h1
  fin_cases c <;> simp [boxLo, boxHi] at * <;> constructor <;> linarith

/-! ### Communication -/

theorem mem_sends {Z : Zoltan} {xs : List V3} {hs : List ℝ} {rank : Nat} {frame : List Nat} {pr id : Nat} :
    (pr, id) ∈ sends Z xs hs rank frame ↔ id ∈ frame ∧ rank ≠ pr ∧
      pr ∈ Z.boxAssign (boxLo (xs.getD id 0) (hs.getD id 0)) (boxHi (xs.getD id 0) (hs.getD id 0)) := by
  simp only [sends, List.mem_flatMap, List.mem_map, List.mem_filter, decide_eq_true_eq, Prod.mk.injEq]
  constructor
  · rintro ⟨i, hi, p, ⟨h1, h2⟩, rfl, rfl⟩
    exact ⟨hi, h2, h1⟩
  · rintro ⟨h1, h2, h3⟩
    exact ⟨id, h1, pr, ⟨h3, h2⟩, rfl, rfl⟩

theorem nodup_sends {Z : Zoltan} (hZ : ∀ lo hi, (Z.boxAssign lo hi).Nodup) {xs : List V3} {hs : List ℝ}
    {rank : Nat} {frame : List Nat} (hf : frame.Nodup) : (sends Z xs hs rank frame).Nodup := by
  unfold sends
  rw [List.nodup_flatMap]
  constructor
  · intro id _
    apply List.Nodup.map
    · intro a b h
      exact (Prod.mk.inj h).1
    · exact (hZ _ _).filter _
  · refine hf.imp ?_
    intro a b hab
    simp only [Function.onFun, List.disjoint_left, List.mem_map]
    rintro _ ⟨p, _, rfl⟩ ⟨q, _, hq⟩
    exact hab (Prod.mk.inj hq).2.symm

theorem getElem?_of_mem_flatten {ranks : List (List Nat)} {k : Nat} (h : k ∈ ranks.flatten) :
    ∃ (s : Nat) (own : List Nat), ranks[s]? = some own ∧ k ∈ own := by
  rw [List.mem_flatten] at h
  obtain ⟨own, h1, h2⟩ := h
  obtain ⟨s, hs⟩ := List.getElem?_of_mem h1
  exact ⟨s, own, hs, h2⟩

theorem same_rank {ranks : List (List Nat)} (hn : ranks.flatten.Nodup) {s t : Nat} {A B : List Nat} {k : Nat}
    (hs : ranks[s]? = some A) (ht : ranks[t]? = some B) (hA : k ∈ A) (hB : k ∈ B) : s = t := by
  rw [List.nodup_flatten] at hn
  by_contra hne
  rcases Nat.lt_or_gt_of_ne hne with h | h
  · have := List.pairwise_iff_getElem.mp hn.2 s t (List.getElem?_eq_some_iff.mp hs).1
      (List.getElem?_eq_some_iff.mp ht).1 h
    rw [(List.getElem?_eq_some_iff.mp hs).2, (List.getElem?_eq_some_iff.mp ht).2] at this
    exact this hA hB
  · have := List.pairwise_iff_getElem.mp hn.2 t s (List.getElem?_eq_some_iff.mp ht).1
      (List.getElem?_eq_some_iff.mp hs).1 h
    rw [(List.getElem?_eq_some_iff.mp hs).2, (List.getElem?_eq_some_iff.mp ht).2] at this
    exact this hB hA

/-- What a processor sends, by global ids. -/
theorem sendsOf_ok (Z : Zoltan) (hZ : ∀ lo hi, (Z.boxAssign lo hi).Nodup) (x : Nat → V3) (h : Nat → ℝ)
    {ranks : List (List Nat)} (hd : Decomposition ranks) {s : Nat} {B : List Nat} (hs : ranks[s]? = some B) :
    ∃ ps, sendsOf Z x h ranks s = .ok ps ∧ ps.Nodup ∧
      ∀ r id, (r, id) ∈ ps ↔ ∃ k, B[id]? = some k ∧ s ≠ r ∧
        r ∈ Z.boxAssign (boxLo (x k) (h k)) (boxHi (x k) (h k)) ∧
        ∃ c, (∃ j ∈ B, (∀ j' ∈ B, x j c ≤ x j' c) ∧ x k c ≤ x j c + maxHorizon (B.map h)) ∨
          (∃ j ∈ B, (∀ j' ∈ B, x j' c ≤ x j c) ∧ x j c - maxHorizon (B.map h) < x k c) := by
  have hBne : B ≠ [] := hd.nonempty B (List.mem_of_getElem? hs)
  obtain ⟨fr, hfr, hfn, lo, hi, hlh, hm⟩ := mem_frameSet (xs := B.map x) (by simpa using hBne) (maxHorizon (B.map h))
  have hB : ranks.getD s [] = B := by rw [List.getD_eq_getElem?_getD, hs]; rfl
  refine ⟨sends Z (B.map x) (B.map h) s fr, ?_, nodup_sends hZ hfn, ?_⟩
  · simp only [sendsOf, hB, hfr]
  · intro r id
    rw [mem_sends, hm]
    have hx : ∀ i k, B[i]? = some k → (B.map x).getD i 0 = x k := by
      intro i k hk
      rw [List.getD_eq_getElem?_getD, List.getElem?_map, hk]; rfl
    have hh : ∀ i k, B[i]? = some k → (B.map h).getD i 0 = h k := by
      intro i k hk
      rw [List.getD_eq_getElem?_getD, List.getElem?_map, hk]; rfl
    have hget : ∀ i, i < (B.map x).length → ∃ k, B[i]? = some k := by
      intro i hi
      rw [List.length_map] at hi
      exact ⟨B[i], List.getElem?_eq_getElem hi⟩
    have hlo : ∀ c, ∃ j ∈ B, (∀ j' ∈ B, x j c ≤ x j' c) ∧ lo c = x j c := by
      intro c
      obtain ⟨⟨i, hi1, hi2⟩, h2, _, _⟩ := hlh c
      obtain ⟨j, hj⟩ := hget i hi1
      rw [hx i j hj] at hi2
      refine ⟨j, List.mem_of_getElem? hj, ?_, hi2⟩
      intro j' hj'
      obtain ⟨i', hi'⟩ := List.getElem?_of_mem hj'
      have := h2 i' (by rw [List.length_map]; exact (List.getElem?_eq_some_iff.mp hi').1)
      rw [hx i' j' hi', hi2] at this
      exact this
    have hhi : ∀ c, ∃ j ∈ B, (∀ j' ∈ B, x j' c ≤ x j c) ∧ hi c = x j c := by
      intro c
      obtain ⟨_, _, ⟨i, hi1, hi2⟩, h2⟩ := hlh c
      obtain ⟨j, hj⟩ := hget i hi1
      rw [hx i j hj] at hi2
      refine ⟨j, List.mem_of_getElem? hj, ?_, hi2⟩
      intro j' hj'
      obtain ⟨i', hi'⟩ := List.getElem?_of_mem hj'
      have := h2 i' (by rw [List.length_map]; exact (List.getElem?_eq_some_iff.mp hi').1)
      rw [hx i' j' hi', hi2] at this
      exact this
    constructor
    · rintro ⟨⟨h1, c, h2⟩, h3, h4⟩
      obtain ⟨k, hk⟩ := hget id h1
      rw [hx id k hk] at h2 h4
      rw [hh id k hk] at h4
      refine ⟨k, hk, h3, h4, c, ?_⟩
      rcases h2 with h2 | h2
      · obtain ⟨j, hj1, hj2, hj3⟩ := hlo c
        exact Or.inl ⟨j, hj1, hj2, hj3 ▸ h2⟩
      · obtain ⟨j, hj1, hj2, hj3⟩ := hhi c
        exact Or.inr ⟨j, hj1, hj2, hj3 ▸ h2⟩
    · rintro ⟨k, hk, h3, h4, c, h2⟩
      rw [hx id k hk, hh id k hk]
      refine ⟨⟨by rw [List.length_map]; exact (List.getElem?_eq_some_iff.mp hk).1, c, ?_⟩, h3, h4⟩
      rcases h2 with ⟨j, hj1, hj2, hj3⟩ | ⟨j, hj1, hj2, hj3⟩
      · left
        obtain ⟨j', hj1', hj2', hj3'⟩ := hlo c
        rw [hj3']
        have := le_antisymm (hj2 j' hj1') (hj2' j hj1)
        linarith
      · right
        obtain ⟨j', hj1', hj2', hj3'⟩ := hhi c
        rw [hj3']
        have := le_antisymm (hj2' j hj1) (hj2 j' hj1')
        linarith

/-- The ids received from the processors `ss`. -/
theorem received_ok (Z : Zoltan) (hZ : ∀ lo hi, (Z.boxAssign lo hi).Nodup) (x : Nat → V3) (h : Nat → ℝ)
    {ranks : List (List Nat)} (hd : Decomposition ranks) (r : Nat) (ss : List Nat) (hnd : ss.Nodup)
    (hss : ∀ s ∈ ss, s < ranks.length) :
    ∃ ids, received Z x h ranks r ss = .ok ids ∧ ids.Nodup ∧
      ∀ k, k ∈ ids ↔ ∃ s ∈ ss, ∃ B, ranks[s]? = some B ∧ ∃ ps, sendsOf Z x h ranks s = .ok ps ∧
        ∃ id, B[id]? = some k ∧ (r, id) ∈ ps := by
  induction ss with
  | nil => exact ⟨[], rfl, List.nodup_nil, by simp⟩
  | cons s ss ih =>
    rw [List.nodup_cons] at hnd
    obtain ⟨ids, h1, h2, h3⟩ := ih hnd.2 (fun t ht => hss t (List.mem_cons_of_mem _ ht))
    have hsl : ranks[s]? = some (ranks[s]'(hss s List.mem_cons_self)) := List.getElem?_eq_getElem _
    generalize ranks[s]'(hss s List.mem_cons_self) = B at hsl
    obtain ⟨ps, hps, hpn, hpm⟩ := sendsOf_ok Z hZ x h hd hsl
    have hB : ranks.getD s [] = B := by rw [List.getD_eq_getElem?_getD, hsl]; rfl
    have hBn : B.Nodup := (List.nodup_flatten.mp hd.nodup).1 B (List.mem_of_getElem? hsl)
    have hmem : ∀ k, k ∈ (ps.filter (fun pi => decide (pi.1 = r))).map (fun pi => B.getD pi.2 0) ↔
        ∃ id, B[id]? = some k ∧ (r, id) ∈ ps := by
      intro k
      simp only [List.mem_map, List.mem_filter, decide_eq_true_eq, Prod.exists]
      constructor
      · rintro ⟨a, id, ⟨h4, rfl⟩, h5⟩
        obtain ⟨k', hk', _⟩ := (hpm a id).mp h4
        rw [List.getD_eq_getElem?_getD, hk'] at h5
        exact ⟨id, by rw [hk', ← h5]; rfl, h4⟩
      · rintro ⟨id, hk, h4⟩
        exact ⟨r, id, ⟨h4, rfl⟩, by rw [List.getD_eq_getElem?_getD, hk]; rfl⟩
    refine ⟨(ps.filter (fun pi => decide (pi.1 = r))).map (fun pi => B.getD pi.2 0) ++ ids, ?_, ?_, ?_⟩
    · simp only [received, hps, h1, hB]
    · rw [List.nodup_append']
      refine ⟨?_, h2, ?_⟩
      · apply List.Nodup.map_on
        · rintro ⟨a, i⟩ ha ⟨b, j⟩ hb hab
          simp only [List.mem_filter, decide_eq_true_eq] at ha hb
          obtain ⟨ka, hka, _⟩ := (hpm a i).mp ha.1
          obtain ⟨kb, hkb, _⟩ := (hpm b j).mp hb.1
          simp only [List.getD_eq_getElem?_getD, hka, hkb, Option.getD_some] at hab
          subst hab
          obtain ⟨hi, hi'⟩ := List.getElem?_eq_some_iff.mp hka
          obtain ⟨hj, hj'⟩ := List.getElem?_eq_some_iff.mp hkb
          have hij : i = j := (hBn.getElem_inj_iff).mp (hi'.trans hj'.symm)
          rw [hij, ha.2, hb.2]
        · exact hpn.filter _
      · intro k hk hk'
        obtain ⟨id, h4, _⟩ := (hmem k).mp hk
        obtain ⟨t, ht, B', hB', _, _, id', h5, _⟩ := (h3 k).mp hk'
        have := same_rank hd.nodup hsl hB' (List.mem_of_getElem? h4) (List.mem_of_getElem? h5)
        exact hnd.1 (this ▸ ht)
    · intro k
      rw [List.mem_append, hmem, h3]
      constructor
      · rintro (h4 | ⟨t, ht, h5⟩)
        · exact ⟨s, List.mem_cons_self, B, hsl, ps, hps, h4⟩
        · exact ⟨t, List.mem_cons_of_mem _ ht, h5⟩
      · rintro ⟨t, ht, B', hB', ps', hps', h5⟩
        rcases List.mem_cons.mp ht with rfl | ht
        · left
          rw [hsl] at hB'
          rw [hps] at hps'
          injection hB' with hB'
          injection hps' with hps'
          subst hB' hps'
          exact h5
        · exact Or.inr ⟨t, ht, B', hB', ps', hps', h5⟩

/-- The overlap points: own ones first, every id once, only existing points, and with every owned point `k`
of another processor that is in its processor's frame and whose own box reaches an own point. -/
theorem overlapIds_ok (Z : Zoltan) (x : Nat → V3) (h : Nat → ℝ) {ranks : List (List Nat)}
    (hZ : Z.Complete x ranks) (hd : Decomposition ranks) {r : Nat} {A : List Nat} (hr : ranks[r]? = some A) :
    ∃ more, overlapIds Z x h ranks r = .ok (A ++ more) ∧ (A ++ more).Nodup ∧
      (∀ k ∈ A ++ more, k ∈ ranks.flatten) ∧
      (∀ (s : Nat) B k, s ≠ r → ranks[s]? = some B → (k ∈ more ∧ k ∈ B ↔ k ∈ B ∧
        r ∈ Z.boxAssign (boxLo (x k) (h k)) (boxHi (x k) (h k)) ∧
        ∃ c, (∃ j ∈ B, (∀ j' ∈ B, x j c ≤ x j' c) ∧ x k c ≤ x j c + maxHorizon (B.map h)) ∨
          (∃ j ∈ B, (∀ j' ∈ B, x j' c ≤ x j c) ∧ x j c - maxHorizon (B.map h) < x k c))) := by
  obtain ⟨ids, h1, h2, h3⟩ := received_ok Z hZ.boxNodup x h hd r (List.range ranks.length)
    List.nodup_range (fun s hs => List.mem_range.mp hs)
  have hA : ranks.getD r [] = A := by rw [List.getD_eq_getElem?_getD, hr]; rfl
  refine ⟨ids, by simp only [overlapIds, h1, hA], ?_, ?_, ?_⟩
  · rw [List.nodup_append']
    refine ⟨(List.nodup_flatten.mp hd.nodup).1 A (List.mem_of_getElem? hr), h2, ?_⟩
    intro k hk hk'
    obtain ⟨s, _, B, hB, ps, hps, id, h4, h5⟩ := (h3 k).mp hk'
    obtain ⟨ps', hps', _, hpm⟩ := sendsOf_ok Z hZ.boxNodup x h hd hB
    rw [hps] at hps'
    injection hps' with hps'
    subst hps'
    obtain ⟨_, _, hne, _⟩ := (hpm r id).mp h5
    exact hne (same_rank hd.nodup hB hr (List.mem_of_getElem? h4) hk)
  · intro k hk
    rw [List.mem_flatten]
    rcases List.mem_append.mp hk with hk | hk
    · exact ⟨A, List.mem_of_getElem? hr, hk⟩
    · obtain ⟨s, _, B, hB, _, _, id, h4, _⟩ := (h3 k).mp hk
      exact ⟨B, List.mem_of_getElem? hB, List.mem_of_getElem? h4⟩
  · intro s B k hne hB
    obtain ⟨ps, hps, _, hpm⟩ := sendsOf_ok Z hZ.boxNodup x h hd hB
    constructor
    · rintro ⟨hk, hkB⟩
      obtain ⟨s', _, B', hB', ps', hps', id, h4, h5⟩ := (h3 k).mp hk
      have := same_rank hd.nodup hB hB' hkB (List.mem_of_getElem? h4)
      subst this
      rw [hB] at hB'
      rw [hps] at hps'
      injection hB' with hB'
      injection hps' with hps'
      subst hB' hps'
      obtain ⟨k', hk', _, h6⟩ := (hpm r id).mp h5
      rw [h4] at hk'
      injection hk' with hk'
      subst hk'
      exact ⟨hkB, h6⟩
    · rintro ⟨hkB, h6⟩
      refine ⟨?_, hkB⟩
      obtain ⟨id, hid⟩ := List.getElem?_of_mem hkB
      exact (h3 k).mpr ⟨s, List.mem_range.mpr (List.getElem?_eq_some_iff.mp hB).1, B, hB, ps, hps, id, hid,
        (hpm r id).mpr ⟨k, hid, hne, h6⟩⟩

/-! ### The local search -/

theorem mem_unflagged {tree : List Nat} {flags : List Bool} (hl : flags.length = tree.length) (u : Nat) :
    u ∈ unflagged tree flags ↔ ∃ n : Nat, tree[n]? = some u ∧ flags[n]? ≠ some true := by
  induction tree generalizing flags with
  | nil => simp [unflagged]
  | cons a tree ih =>
    cases flags with
    | nil => simp at hl
    | cons b flags =>
      have ih' := ih (flags := flags) (by simpa using hl)
      simp only [unflagged]
      cases b
      · simp only [Bool.false_eq_true, if_false, List.mem_cons, ih']
        constructor
        · rintro (rfl | ⟨n, h1, h2⟩)
          · exact ⟨0, by simp, by simp⟩
          · exact ⟨n + 1, by simpa using h1, by simpa using h2⟩
        · rintro ⟨n, h1, h2⟩
          cases n with
          | zero => left; simpa using h1.symm
          | succ n => exact Or.inr ⟨n, by simpa using h1, by simpa using h2⟩
      · simp only [if_true, ih']
        constructor
        · rintro ⟨n, h1, h2⟩
          exact ⟨n + 1, by simpa using h1, by simpa using h2⟩
        · rintro ⟨n, h1, h2⟩
          cases n with
          | zero => simp at h2
          | succ n => exact ⟨n, by simpa using h1, by simpa using h2⟩

theorem unflagged_sublist (tree : List Nat) (flags : List Bool) : (unflagged tree flags).Sublist tree := by
  induction tree generalizing flags with
  | nil => simp [unflagged]
  | cons a tree ih =>
    cases flags with
    | nil => simp [unflagged]
    | cons b flags =>
      cases b
      · simp only [unflagged, Bool.false_eq_true, if_false]
        exact (ih flags).cons_cons a
      · simp only [unflagged, if_true]
        exact (ih flags).cons a

theorem mem_find {Z : Zoltan} {x : Nat → V3} {ranks : List (List Nat)} (hZ : Z.Complete x ranks) (xs : List V3)
    (p : V3) {R : ℝ} (hR : 0 ≤ R) (i : Nat) :
    i ∈ findPointsWithinRadius Z xs p R ↔ ∃ X, xs[i]? = some X ∧ len (X - p) ≤ R := by
  simp only [findPointsWithinRadius, List.mem_filter, decide_eq_true_eq]
  rw [within_iff hR]
  constructor
  · rintro ⟨h1, h2⟩
    have hi := hZ.partBound _ _ _ i h1
    refine ⟨xs[i], List.getElem?_eq_getElem hi, ?_⟩
    rw [List.getD_eq_getElem?_getD, List.getElem?_eq_getElem hi] at h2
    exact h2
  · rintro ⟨X, h1, h2⟩
    refine ⟨hZ.part xs _ _ i X h1 (inBox_of_len h2), ?_⟩
    rw [List.getD_eq_getElem?_getD, h1]
    exact h2

/-- The neighbors of one point, as local ids. -/
theorem buildOne_ok {Z : Zoltan} {x : Nat → V3} {ranks : List (List Nat)} (hZ : Z.Complete x ranks)
    {xs : List V3} {fs : List BondFilter} {p : Nat} {pt : V3} {R : ℝ} (hR : 0 ≤ R) {ns : List Nat}
    (h : buildOne Z xs fs p pt R = .ok ns) :
    ns.Nodup ∧ ∀ u, u ∈ ns ↔ ∃ X, xs[u]? = some X ∧ len (X - pt) ≤ R ∧
      ¬ ∃ f ∈ fs, (p = u ∧ f.includeSelf = false) ∨ f.shape.cuts pt X = .ok true := by
  simp only [buildOne] at h
  split at h
  · cases h
  · split at h
    · next flags hfl =>
      injection h with h
      subst h
      have hperm := List.perm_insertionSort (· ≤ ·) (findPointsWithinRadius Z xs pt R)
      have hnd : ((findPointsWithinRadius Z xs pt R).insertionSort (· ≤ ·)).Nodup := by
        rw [hperm.nodup_iff]
        exact (hZ.partNodup _ _ _).filter _
      obtain ⟨hlen, _⟩ := runFilters_ok hfl (by simp)
      refine ⟨(unflagged_sublist _ _).nodup hnd, ?_⟩
      intro u
      rw [mem_unflagged hlen]
      constructor
      · rintro ⟨n, h1, h2⟩
        rw [Ne, filters_mark_iff _ _ _ _ _ _ hfl n u h1] at h2
        have hu := hperm.mem_iff.mp (List.mem_of_getElem? h1)
        rw [mem_find hZ xs pt hR] at hu
        obtain ⟨X, hX1, hX2⟩ := hu
        rw [List.getD_eq_getElem?_getD, hX1] at h2
        exact ⟨X, hX1, hX2, h2⟩
      · rintro ⟨X, hX1, hX2, h2⟩
        have hu := hperm.mem_iff.mpr ((mem_find hZ xs pt hR u).mpr ⟨X, hX1, hX2⟩)
        obtain ⟨n, hn⟩ := List.getElem?_of_mem hu
        refine ⟨n, hn, ?_⟩
        rw [Ne, filters_mark_iff _ _ _ _ _ _ hfl n u hn, List.getD_eq_getElem?_getD, hX1]
        exact h2
    · cases h
    · cases h

theorem buildOne_total {Z : Zoltan} {x : Nat → V3} {ranks : List (List Nat)} (hZ : Z.Complete x ranks)
    {xs : List V3} {fs : List BondFilter} {p : Nat} {pt : V3} {R : ℝ} (hR : 0 ≤ R)
    (hp : xs[p]? = some pt) (hf : ∀ f ∈ fs, NonDegenerate f.shape) :
    ∃ ns, buildOne Z xs fs p pt R = .ok ns := by
  have hself : p ∈ findPointsWithinRadius Z xs pt R := by
    rw [mem_find hZ xs pt hR]
    refine ⟨pt, hp, ?_⟩
    simp [len, hR]
  simp only [buildOne]
  rw [if_neg (by intro h; rw [List.length_eq_zero_iff] at h; rw [h] at hself; simp at hself)]
  obtain ⟨bs, hbs⟩ := runFilters_total (fs := fs) (pt := pt) (i := p) (xO := fun uid => xs.getD uid 0)
    (tree := (findPointsWithinRadius Z xs pt R).insertionSort (· ≤ ·))
    (flags := List.replicate ((findPointsWithinRadius Z xs pt R).insertionSort (· ≤ ·)).length false) (by simp)
    (fun f hff uid _ _ => cuts_defined _ (hf f hff) _ _)
  rw [hbs]
  exact ⟨_, rfl⟩

theorem buildAll_ok {Z : Zoltan} {xs : List V3} {ids : List Nat} {fs : List BondFilter} {h : Nat → ℝ}
    {x : Nat → V3} {p : Nat} {own : List Nat} {ls : List (List Nat)}
    (hb : buildAll Z xs ids fs h x p own = .ok ls) :
    ls.length = own.length ∧ ∀ (i g : Nat) (l : List Nat), own[i]? = some g → ls[i]? = some l →
      ∃ ns, buildOne Z xs fs (p + i) (x g) (h g) = .ok ns ∧ l = ns.map (fun n => ids.getD n 0) := by
  induction own generalizing p ls with
  | nil =>
    simp only [buildAll, Outcome.ok.injEq] at hb
    subst hb
    exact ⟨rfl, by simp⟩
  | cons g own ih =>
    simp only [buildAll] at hb
    split at hb
    · next ns hns =>
      split at hb
      · next more hmore =>
        injection hb with hb
        subst hb
        obtain ⟨h1, h2⟩ := ih hmore
        refine ⟨by simp [h1], ?_⟩
        intro i g' l hg hl
        cases i with
        | zero =>
          simp only [List.getElem?_cons_zero, Option.some.injEq] at hg hl
          subst hg hl
          exact ⟨ns, hns, rfl⟩
        | succ i =>
          simp only [List.getElem?_cons_succ] at hg hl
          obtain ⟨ns', h3, h4⟩ := h2 i g' l hg hl
          refine ⟨ns', ?_, h4⟩
          rw [← h3]
          congr 1
          omega
      · cases hb
      · cases hb
    · cases hb
    · cases hb

theorem buildAll_total {Z : Zoltan} {xs : List V3} {ids : List Nat} {fs : List BondFilter} {h : Nat → ℝ}
    {x : Nat → V3} {p : Nat} {own : List Nat}
    (ht : ∀ (i g : Nat), own[i]? = some g → ∃ ns, buildOne Z xs fs (p + i) (x g) (h g) = .ok ns) :
    ∃ ls, buildAll Z xs ids fs h x p own = .ok ls := by
  induction own generalizing p with
  | nil => exact ⟨[], rfl⟩
  | cons g own ih =>
    obtain ⟨ns, hns⟩ := ht 0 g rfl
    obtain ⟨ls, hls⟩ := ih (p := p + 1) (by
      intro i g' hg
      obtain ⟨ns', h'⟩ := ht (i + 1) g' (by simpa using hg)
      refine ⟨ns', ?_⟩
      rw [← h']
      congr 1
      omega)
    rw [Nat.add_zero] at hns
    exact ⟨_, by simp only [buildAll, hns, hls]; rfl⟩

theorem effective_self {fs : List BondFilter} (h : ExcludesSelf fs) :
    ∃ f ∈ effectiveFilters fs, f.includeSelf = false := by
  unfold effectiveFilters
  rcases h with rfl | ⟨f, hf, h⟩
  · exact ⟨⟨.default, false⟩, by simp, rfl⟩
  · rw [if_neg (by intro h0; rw [List.length_eq_zero_iff.1 h0] at hf; cases hf)]
    exact ⟨f, hf, h⟩

theorem effective_uncut (fs : List BondFilter) (x : Nat → V3) (g k : Nat) :
    Uncut (effectiveFilters fs) x g k ↔ Uncut fs x g k := by
  unfold effectiveFilters
  split
  · next h0 =>
    rw [List.length_eq_zero_iff.1 h0]
    constructor
    · intro _ f hf
      cases hf
    · intro _ f hf
      rw [List.mem_singleton.1 hf]
      simp [Shape.cuts]
  · rfl

end Verif.Search
