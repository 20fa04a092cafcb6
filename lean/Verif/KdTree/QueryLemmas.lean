import Verif.KdTree.TreeLemmas

/-! Lemmas about the queries. -/

noncomputable section

namespace Verif.KdTree

open Verif Verif.Mech
open scoped Classical

variable {rnd : ℝ → ℝ} {x : Nat → V3} {n : Nat}

theorem Shape.ne_nil {nd : Node} {ids : List Nat} (s : Shape x nd ids) : ids ≠ [] := by
  induction s with
  | leaf i => simp
  | node hl hr _ _ _ ihl ihr => simp [ihl]

theorem report_eq {nd : Node} {ids : List Nat} (s : Shape x nd ids) : ∀ acc, report nd acc = .ok (acc ++ ids) := by
  induction s with
  | leaf i => intro acc; rw [report]
  | @node id a cut l r A B hl hr _ _ _ ihl ihr =>
    intro acc
    have h1 : l.isNull = false := by cases hl <;> rfl
    have h2 : r.isNull = false := by cases hr <;> rfl
    rw [report, h1, h2]
    simp only [Bool.false_eq_true, if_false]
    rw [ihl]
    simp only [Outcome.ok_bind]
    rw [ihr, List.append_assoc]

theorem le_iff (p q : V3) : le p q ↔ ∀ c, p c ≤ q c := by
  rw [le]
  constructor
  · rintro ⟨h0, h1, h2⟩ c
    fin_cases c
    · exact h0
    · exact h1
    · exact h2
  · intro h
    exact ⟨h 0, h 1, h 2⟩

theorem contains_iff (r : Range) (p : V3) : r.contains p ↔ ∀ c, r.low c ≤ p c ∧ p c ≤ r.high c := by
  rw [Range.contains, le_iff, le_iff]
  exact ⟨fun h c => ⟨h.1 c, h.2 c⟩, fun h => ⟨fun c => (h c).1, fun c => (h c).2⟩⟩

theorem left_contains {box : Range} {p : V3} {a : Fin 3} {cut : ℝ} (h : box.contains p) (hc : p a ≤ cut) :
    (box.left a cut).contains p := by
  rw [contains_iff] at h ⊢
  intro c
  refine ⟨(h c).1, ?_⟩
  change p c ≤ Function.update box.high a cut c
  by_cases e : c = a
  · subst e; rw [Function.update_self]; exact hc
  · rw [Function.update_of_ne e]; exact (h c).2

theorem right_contains {box : Range} {p : V3} {a : Fin 3} {cut : ℝ} (h : box.contains p) (hc : cut ≤ p a) :
    (box.right a cut).contains p := by
  rw [contains_iff] at h ⊢
  intro c
  refine ⟨?_, (h c).2⟩
  change Function.update box.low a cut c ≤ p c
  by_cases e : c = a
  · subst e; rw [Function.update_self]; exact hc
  · rw [Function.update_of_ne e]; exact (h c).1

theorem contains_of_range {R box : Range} {p : V3} (h : R.containsRange box) (hp : box.contains p) : R.contains p := by
  rw [Range.containsRange, le_iff, le_iff] at h
  rw [contains_iff] at hp ⊢
  exact fun c => ⟨(h.1 c).trans (hp c).1, (hp c).2.trans (h.2 c)⟩

theorem intersects_of_contains {R box : Range} {p : V3} {a : Fin 3} (h : R.contains p) (hp : box.contains p) :
    R.intersectsAlong box a := by
  rw [contains_iff] at h hp
  exact ⟨not_lt.2 ((hp a).1.trans (h a).2), not_lt.2 ((h a).1.trans (hp a).2)⟩

/-- The search finds the points below a node that lie in the range. -/
theorem search_eq (R : Range) {nd : Node} {ids : List Nat} (s : Shape x nd ids) :
    ∀ (box : Range) (acc : List Nat), (∀ i ∈ ids, box.contains (x i)) →
      search x R nd box acc = .ok (acc ++ ids.filter fun i => decide (R.contains (x i))) := by
  induction s with
  | leaf i =>
    intro box acc _
    rw [search]
    by_cases h : R.contains (x i)
    · rw [if_pos h]; simp [h]
    · rw [if_neg h]; simp [h]
  | @node id a cut l r A B hl hr _ hA hB ihl ihr =>
    intro box acc hb
    have bl : ∀ i ∈ A, (box.left a cut).contains (x i) := fun i hi =>
      left_contains (hb i (List.mem_append_left _ hi)) (hA i hi).le
    have br : ∀ i ∈ B, (box.right a cut).contains (x i) := fun i hi =>
      right_contains (hb i (List.mem_append_right _ hi)) (hB i hi)
    have part : ∀ (sub : Node) (ids : List Nat) (b : Range) (acc : List Nat), Shape x sub ids →
        (∀ i ∈ ids, b.contains (x i)) →
        (search x R sub b acc = .ok (acc ++ ids.filter fun i => decide (R.contains (x i)))) →
        (if R.containsRange b then report sub acc else if R.intersectsAlong b a then search x R sub b acc
          else Outcome.ok acc) = .ok (acc ++ ids.filter fun i => decide (R.contains (x i))) := by
      intro sub ids b acc ss hin hs
      split
      · rename_i hc
        rw [report_eq ss, List.filter_eq_self.2]
        intro i hi
        simpa using contains_of_range hc (hin i hi)
      · split
        · exact hs
        · rename_i hno
          rw [List.filter_eq_nil_iff.2, List.append_nil]
          intro i hi hc
          exact hno (intersects_of_contains (by simpa using hc) (hin i hi))
    rw [search, part l A _ acc hl bl (ihl _ _ bl)]
    simp only [Outcome.ok_bind]
    rw [part r B _ _ hr br (ihr _ _ br), List.filter_append, List.append_assoc]

theorem distSq_comm (p q : V3) : distSq p q = distSq q p := by
  rw [distSq, distSq]; ring

theorem coord_le_distSq (p q : V3) (a : Fin 3) : (p a - q a) ^ 2 ≤ distSq p q := by
  rw [distSq]
  have h0 := sq_nonneg (p 0 - q 0)
  have h1 := sq_nonneg (p 1 - q 1)
  have h2 := sq_nonneg (p 2 - q 2)
  fin_cases a
  · change (p 0 - q 0) ^ 2 ≤ _; nlinarith
  · change (p 1 - q 1) ^ 2 ≤ _; nlinarith
  · change (p 2 - q 2) ^ 2 ≤ _; nlinarith

theorem around_low (c : V3) (r : ℝ) (a : Fin 3) : (Range.around c r).low a = c a - r := by
  fin_cases a <;> rfl

theorem around_high (c : V3) (r : ℝ) (a : Fin 3) : (Range.around c r).high a = c a + r := by
  fin_cases a <;> rfl

/-- A point of a range that the cube around `s` misses is farther away than half the side of the cube. -/
theorem far_of_disjoint {box : Range} {s p q : V3} {a : Fin 3} (hp : box.contains p)
    (h : ¬ box.intersectsAlong (Range.around s (Real.sqrt (distSq q s))) a) : distSq q s < distSq p s := by
  rw [contains_iff] at hp
  rw [Range.intersectsAlong, around_low, around_high, not_and_or, not_not, not_not] at h
  have hq : 0 ≤ Real.sqrt (distSq q s) := Real.sqrt_nonneg _
  have hd : 0 ≤ distSq q s := by
    rw [distSq]
    nlinarith [sq_nonneg (q 0 - s 0), sq_nonneg (q 1 - s 1), sq_nonneg (q 2 - s 2)]
  have hsq := Real.sq_sqrt hd
  have hc := coord_le_distSq p s a
  rcases h with h | h
  · nlinarith [(hp a).2]
  · nlinarith [(hp a).1]

/-- The nearest neighbor search returns a point below the node to which no other one below it is closer. -/
theorem nnSearch_spec (s : V3) {nd : Node} {ids : List Nat} (sh : Shape x nd ids) :
    ∀ box : Range, (∀ i ∈ ids, box.contains (x i)) →
      ∃ i ∈ ids, nnSearch x s nd box = .ok i ∧ ∀ j ∈ ids, distSq (x i) s ≤ distSq (x j) s := by
  induction sh with
  | leaf i =>
    intro box _
    exact ⟨i, List.mem_singleton.2 rfl, by rw [nnSearch], fun j hj => by rw [List.mem_singleton.1 hj]⟩
  | @node id a cut l r A B hl hr hid hA hB ihl ihr =>
    intro box hb
    have bl : ∀ i ∈ A, (box.left a cut).contains (x i) := fun i hi =>
      left_contains (hb i (List.mem_append_left _ hi)) (hA i hi).le
    have br : ∀ i ∈ B, (box.right a cut).contains (x i) := fun i hi =>
      right_contains (hb i (List.mem_append_right _ hi)) (hB i hi)
    obtain ⟨cl, hcl, el, ml⟩ := ihl _ bl
    obtain ⟨cr, hcr, er, mr⟩ := ihr _ br
    have half : ∀ (P Q : List Nat) (bq : Range) (sub : Node) (c d : Nat), (∀ i ∈ P ++ Q, i ∈ A ++ B) → c ∈ P → d ∈ Q →
        (∀ j ∈ P, distSq (x c) s ≤ distSq (x j) s) → (∀ j ∈ Q, distSq (x d) s ≤ distSq (x j) s) →
        (∀ i ∈ Q, bq.contains (x i)) → nnSearch x s sub bq = .ok d →
        ∃ i ∈ A ++ B, (if bq.intersectsAlong (Range.around s (Real.sqrt
            (distSq (x (if distSq (x id) s < distSq (x c) s then id else c)) s))) a then do
            let d ← nnSearch x s sub bq
            Outcome.ok (if distSq (x d) s < distSq (x (if distSq (x id) s < distSq (x c) s then id else c)) s then d
              else (if distSq (x id) s < distSq (x c) s then id else c))
          else .ok (if distSq (x id) s < distSq (x c) s then id else c)) = .ok i ∧
          ∀ j ∈ P ++ Q, distSq (x i) s ≤ distSq (x j) s := by
      intro P Q bq sub c d hsub hc hd mc md hq hn
      have hc' : (if distSq (x id) s < distSq (x c) s then id else c) ∈ A ++ B := by
        split
        · exact hid
        · exact hsub _ (List.mem_append_left _ hc)
      have hle : distSq (x (if distSq (x id) s < distSq (x c) s then id else c)) s ≤ distSq (x c) s := by
        split
        · rename_i h; exact h.le
        · exact le_rfl
      generalize (if distSq (x id) s < distSq (x c) s then id else c) = e at hc' hle ⊢
      by_cases hi : bq.intersectsAlong (Range.around s (Real.sqrt (distSq (x e) s))) a
      · rw [if_pos hi, hn]
        simp only [Outcome.ok_bind]
        by_cases hlt : distSq (x d) s < distSq (x e) s
        · refine ⟨d, hsub _ (List.mem_append_right _ hd), by rw [if_pos hlt], ?_⟩
          intro j hj
          rcases List.mem_append.1 hj with hj | hj
          · have := mc j hj; linarith
          · exact md j hj
        · refine ⟨e, hc', by rw [if_neg hlt], ?_⟩
          intro j hj
          rcases List.mem_append.1 hj with hj | hj
          · have := mc j hj; linarith
          · have := md j hj; linarith
      · rw [if_neg hi]
        refine ⟨e, hc', rfl, ?_⟩
        intro j hj
        rcases List.mem_append.1 hj with hj | hj
        · have := mc j hj; linarith
        · exact (far_of_disjoint (hq j hj) hi).le
    by_cases hs : (box.left a cut).containsAlong s a
    · obtain ⟨i, hi, e, m⟩ := half A B (box.right a cut) r cl cr (fun i hi => hi) hcl hcr ml mr br er
      refine ⟨i, hi, ?_, m⟩
      rw [nnSearch, if_pos hs, el]
      exact e
    · obtain ⟨i, hi, e, m⟩ := half B A (box.left a cut) l cr cl
        (fun i hi => by rw [List.mem_append] at hi ⊢; exact hi.symm) hcr hcl mr ml bl el
      refine ⟨i, hi, ?_, fun j hj => m j (by rw [List.mem_append] at hj ⊢; exact hj.symm)⟩
      rw [nnSearch, if_neg hs, er]
      exact e

/-- What the construction gives. -/
theorem getTree_spec {S : Sorter} {T : Tree} (hS : Sorts S) (f : Fair rnd x n) (h : getTree S rnd x n = .ok T) :
    T.n = n ∧ T.x = x ∧ T.nodes = 2 * n - 1 ∧ (2 ≤ n → ∃ ids, ids.Perm (List.range n) ∧ Shape x T.root ids) := by
  rw [getTree] at h
  split at h
  · rename_i h0
    cases h
    subst h0
    exact ⟨rfl, rfl, rfl, by omega⟩
  · split at h
    · rename_i h1
      cases h
      subst h1
      exact ⟨rfl, rfl, rfl, by omega⟩
    · obtain ⟨r, hr, h⟩ := Outcome.bind_eq_ok.1 h
      cases h
      have g : Good x n fun c => S (fun i => x i c) (List.range n) := by
        refine ⟨fun c => (hS _ _).2, fun c => (hS _ _).1.trans (hS _ _).1.symm, ?_, ?_⟩
        · intro i hi
          exact List.mem_range.1 ((hS _ _).1.mem_iff.1 hi)
        · exact (hS _ _).1.nodup_iff.2 List.nodup_range
      have hlen : (S (fun i => x i 0) (List.range n)).length = n := by
        rw [(hS _ _).1.length_eq, List.length_range]
      obtain ⟨ids, hp, hs, hc⟩ := makeTree_shape f _ _ _ _ r g (by change 2 ≤ (S _ _).length; omega) hr
      have hids : ids.Perm (List.range n) := hp.trans (hS _ _).1
      have hl := hids.length_eq
      rw [List.length_range] at hl
      exact ⟨rfl, rfl, by change r.2 = _; omega, fun _ => ⟨ids, hids, hs⟩⟩

end Verif.KdTree
