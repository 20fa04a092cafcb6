import Verif.KdTree.Lemmas

/-! Lemmas about the tree that is built. -/

noncomputable section

namespace Verif.KdTree

open Verif Verif.Mech
open scoped Classical

variable {rnd : ℝ → ℝ} {x : Nat → V3} {n : Nat}

theorem Good.ne_nil {p : Fin 3 → List Nat} (g : Good x n p) (h : p 0 ≠ []) (c : Fin 3) : p c ≠ [] := by
  intro e
  have := g.perm c
  rw [e] at this
  exact h this.symm.eq_nil

theorem Good.lt {p : Fin 3 → List Nat} (g : Good x n p) {c : Fin 3} {i : Nat} (h : i ∈ p c) : i < n :=
  g.bound i ((g.perm c).mem_iff.1 h)

/-- What `find_median` does. -/
structure MedianSpec (rnd : ℝ → ℝ) (x : Nat → V3) (p : Fin 3 → List Nat) (m : Median) : Prop where
  id : m.id ∈ p 0
  cut : m.cut = middle rnd (firstValue x m.axis (p m.axis)) (lastValue x m.axis (p m.axis))
  left : (fun c => (m.maps c).take m.leftSize) = fun c => (p c).filter fun i => decide (x i m.axis < m.cut)
  right : (fun c => (m.maps c).drop m.leftSize) = fun c => (p c).filter fun i => !decide (x i m.axis < m.cut)
  widest : ∀ c, rnd (lastValue x c (p c) - firstValue x c (p c)) ≤
    rnd (lastValue x m.axis (p m.axis) - firstValue x m.axis (p m.axis))
  last : m.cut ≤ lastValue x m.axis (p m.axis)

theorem findMedian_spec {p : Fin 3 → List Nat} (f : Fair rnd x n) (g : Good x n p) (h0 : p 0 ≠ []) :
    ∃ m, findMedian rnd x p = .ok m ∧ MedianSpec rnd x p m := by
  have hfirst : ∀ c, p c ≠ [] → (p c).headD 0 < n := fun c h => g.lt (headD_mem h)
  have hlast : ∀ c, p c ≠ [] → (p c).getLastD 0 < n := fun c h => g.lt (getLastD_mem h)
  have hle : ∀ c, firstValue x c (p c) ≤ lastValue x c (p c) := fun c =>
    (sorted_ends x c (p c) (g.sorted c) _ (getLastD_mem (g.ne_nil h0 c))).1
  have hnn : ∀ c, 0 ≤ rnd (lastValue x c (p c) - firstValue x c (p c)) := fun c =>
    f.nonneg _ (hfirst c (g.ne_nil h0 c)) _ (hlast c (g.ne_nil h0 c)) c (hle c)
  have hmid : ∀ c, middle rnd (firstValue x c (p c)) (lastValue x c (p c)) ≤ lastValue x c (p c) := fun c =>
    f.le _ (hfirst c (g.ne_nil h0 c)) _ (hlast c (g.ne_nil h0 c)) c (hle c)
  have hcut := spanningAxis_cut rnd x p hnn
  have hmax := spanningAxis_max rnd x p hnn
  generalize ha : (spanningAxis rnd x p).1 = a at hcut hmax
  generalize hv : (spanningAxis rnd x p).2 = v at hcut
  have hmi := medianIndex_eq rnd x a (p a) (g.ne_nil h0 a) (g.sorted a) (hmid a)
  rw [← hcut] at hmi
  set b : Nat → Bool := fun i => decide (x i a < v) with hb
  set k := ((p a).filter b).length with hk
  have hlen : ∀ c, ((p c).filter b).length = k := fun c =>
    (((g.perm c).trans (g.perm a).symm).filter b).length_eq
  have hs := fun c => split_eq b k (p c) (hlen c)
  have hlastb : ¬ x ((p a).getLastD 0) a < v := by
    have := hmid a
    rw [← hcut, lastValue] at this
    linarith
  have hklt : k < (p a).length := by
    by_contra hge
    have hle' := (List.filter_sublist (p := b) (l := p a))
    have heq := hle'.eq_of_length_le (by omega)
    have hm := getLastD_mem (g.ne_nil h0 a)
    rw [← heq, List.mem_filter] at hm
    exact hlastb (by
      have h2 := hm.2
      rw [heq] at h2
      simpa [hb] using h2)
  refine ⟨⟨(p a).getD k 0, k, a, v, fun c => if c = a then p c else
    if c = a + 1 then (p (a + 1)).filter b ++ (p (a + 1)).filter fun i => !b i
    else (p (a + 2)).filter b ++ (p (a + 2)).filter fun i => !b i⟩, ?_, ?_⟩
  · rw [findMedian]
    simp only [ha, hv, hmi, Outcome.ok_bind, ← hb, hs]
  · have htake : ∀ c, (if c = a then p c else if c = a + 1 then (p (a + 1)).filter b ++ (p (a + 1)).filter fun i => !b i
        else (p (a + 2)).filter b ++ (p (a + 2)).filter fun i => !b i).take k = (p c).filter b ∧
        (if c = a then p c else if c = a + 1 then (p (a + 1)).filter b ++ (p (a + 1)).filter fun i => !b i
        else (p (a + 2)).filter b ++ (p (a + 2)).filter fun i => !b i).drop k = (p c).filter fun i => !b i := by
      intro c
      by_cases h1 : c = a
      · subst h1
        rw [if_pos rfl]
        exact take_sorted x c v (p c) (g.sorted c)
      · rw [if_neg h1]
        by_cases h2 : c = a + 1
        · subst h2
          rw [if_pos rfl, ← hlen (a + 1)]
          exact ⟨List.take_left, List.drop_left⟩
        · have h3 : c = a + 2 := (by decide : ∀ c a : Fin 3, c ≠ a → c ≠ a + 1 → c = a + 2) c a h1 h2
          subst h3
          rw [if_neg h2, ← hlen (a + 2)]
          exact ⟨List.take_left, List.drop_left⟩
    refine ⟨?_, hcut, ?_, ?_, hmax, ?_⟩
    · change (p a).getD k 0 ∈ p 0
      rw [List.getD_eq_getElem?_getD, List.getElem?_eq_getElem hklt, Option.getD_some]
      exact (g.perm a).mem_iff.1 (List.getElem_mem hklt)
    · funext c; exact (htake c).1
    · funext c; exact (htake c).2
    · exact not_lt.1 hlastb

/-- The points below a node, from left to right, are separated by the cuts. -/
inductive Shape (x : Nat → V3) : Node → List Nat → Prop
  | leaf (i : Nat) : Shape x (.leaf i) [i]
  | node {id : Nat} {a : Fin 3} {cut : ℝ} {l r : Node} {A B : List Nat} (hl : Shape x l A) (hr : Shape x r B)
      (hid : id ∈ A ++ B) (hA : ∀ i ∈ A, x i a < cut) (hB : ∀ i ∈ B, cut ≤ x i a) :
      Shape x (.node id a cut l r) (A ++ B)

theorem MedianSpec.right_ne {p : Fin 3 → List Nat} {m : Median} (s : MedianSpec rnd x p m) (g : Good x n p)
    (h0 : p 0 ≠ []) : ((p 0).filter fun i => !decide (x i m.axis < m.cut)) ≠ [] := by
  have hm := (g.perm m.axis).mem_iff.1 (getLastD_mem (g.ne_nil h0 m.axis))
  apply List.ne_nil_of_mem (a := (p m.axis).getLastD 0)
  rw [List.mem_filter]
  refine ⟨hm, ?_⟩
  have := s.last
  rw [lastValue] at this
  simpa using this

/-- If no point lies below the cut the recursion does not come to an end. -/
theorem makeTree_stuck {p : Fin 3 → List Nat} (f : Fair rnd x n) (g : Good x n p) (h2 : 2 ≤ (p 0).length) {m : Median}
    (hm : findMedian rnd x p = .ok m) (hl : ((p 0).filter fun i => decide (x i m.axis < m.cut)) = []) (cap : Nat) :
    ∀ fuel used, makeTree rnd x cap fuel p used = .ub := by
  have h0 : p 0 ≠ [] := by rintro e; rw [e] at h2; simp at h2
  obtain ⟨m', hm', sp⟩ := findMedian_spec f g h0
  rw [hm] at hm'
  cases hm'
  have hleft : ∀ c, ((p c).filter fun i => decide (x i m.axis < m.cut)) = [] := by
    intro c
    have := (g.perm c).filter fun i => decide (x i m.axis < m.cut)
    rw [hl] at this
    exact this.eq_nil
  have hright : (fun c => (p c).filter fun i => !decide (x i m.axis < m.cut)) = p := by
    funext c
    apply List.filter_eq_self.2
    intro i hi
    have := List.filter_eq_nil_iff.1 (hleft c) i hi
    simpa using this
  intro fuel
  induction fuel with
  | zero => intro used; rw [makeTree]
  | succ fuel ih =>
    intro used
    rw [makeTree, if_neg (by omega)]
    split
    · rfl
    · rw [hm]
      simp only [Outcome.ok_bind, sp.left, sp.right, hright]
      have hc : ∀ used, child cap (makeTree rnd x cap fuel) m.axis p used = .ub := by
        intro used
        rw [child, if_neg, ih]
        rw [(g.perm m.axis).length_eq]
        omega
      rw [child, if_neg (by rw [hleft]; simp)]
      cases fuel with
      | zero => rfl
      | succ fuel =>
        conv_lhs => arg 1; rw [makeTree]
        rw [if_pos (by rw [hleft]; rfl)]
        simp only [Outcome.ok_bind, hc]
        rfl

theorem child_shape {cap : Nat} {rec : (Fin 3 → List Nat) → Nat → Outcome (Node × Nat)} {axis : Fin 3}
    {p : Fin 3 → List Nat} {used : Nat} {r : Node × Nat} (g : Good x n p)
    (hrec : ∀ r, rec p used = .ok r → 2 ≤ (p 0).length →
      ∃ ids, ids.Perm (p 0) ∧ Shape x r.1 ids ∧ r.2 + 1 = used + 2 * ids.length) (hne : p 0 ≠ [])
    (h : child cap rec axis p used = .ok r) :
    ∃ ids, ids.Perm (p 0) ∧ Shape x r.1 ids ∧ r.2 + 1 = used + 2 * ids.length := by
  rw [child] at h
  split at h
  · rename_i h1
    split at h
    · cases h
      obtain ⟨i, hi⟩ := List.length_eq_one_iff.1 h1
      refine ⟨[i], ?_, ?_, rfl⟩
      · rw [← hi]; exact g.perm axis
      · rw [hi]; exact .leaf i
    · cases h
  · rename_i h1
    refine hrec r h ?_
    rw [(g.perm axis).length_eq] at h1
    have := List.length_pos_iff.2 hne
    omega

theorem makeTree_shape (f : Fair rnd x n) (cap : Nat) :
    ∀ fuel (p : Fin 3 → List Nat) used r, Good x n p → 2 ≤ (p 0).length → makeTree rnd x cap fuel p used = .ok r →
      ∃ ids, ids.Perm (p 0) ∧ Shape x r.1 ids ∧ r.2 + 1 = used + 2 * ids.length := by
  intro fuel
  induction fuel with
  | zero => intro p used r _ _ h; rw [makeTree] at h; cases h
  | succ fuel ih =>
    intro p used r g h2 h
    have h0 : p 0 ≠ [] := by rintro e; rw [e] at h2; simp at h2
    obtain ⟨m, hm, sp⟩ := findMedian_spec f g h0
    have hl : ((p 0).filter fun i => decide (x i m.axis < m.cut)) ≠ [] := by
      intro e
      rw [makeTree_stuck f g h2 hm e] at h
      cases h
    have hr := sp.right_ne g h0
    rw [makeTree, if_neg (by omega)] at h
    split at h
    · cases h
    · rw [hm] at h
      simp only [Outcome.ok_bind, sp.left, sp.right] at h
      obtain ⟨L, hL, h⟩ := Outcome.bind_eq_ok.1 h
      obtain ⟨R, hR, h⟩ := Outcome.bind_eq_ok.1 h
      cases h
      have gl := g.filter fun i => decide (x i m.axis < m.cut)
      have gr := g.filter fun i => !decide (x i m.axis < m.cut)
      obtain ⟨A, pA, sA, cA⟩ := child_shape gl (fun r hr h2 => ih _ _ r gl h2 hr) hl hL
      obtain ⟨B, pB, sB, cB⟩ := child_shape gr (fun r hr h2 => ih _ _ r gr h2 hr) hr hR
      have hp : (A ++ B).Perm (p 0) := (pA.append pB).trans (List.filter_append_perm _ _)
      refine ⟨A ++ B, hp, ?_, ?_⟩
      · refine .node sA sB (hp.mem_iff.2 sp.id) ?_ ?_
        · intro i hi
          have := (List.mem_filter.1 (pA.mem_iff.1 hi)).2
          simpa using this
        · intro i hi
          have := (List.mem_filter.1 (pB.mem_iff.1 hi)).2
          simpa using this
      · rw [List.length_append]
        change R.2 + 1 = _
        omega

theorem makeTree_not_fail (f : Fair rnd x n) (cap : Nat) (e : Fault) :
    ∀ fuel (p : Fin 3 → List Nat) used, Good x n p → makeTree rnd x cap fuel p used ≠ .fail e := by
  intro fuel
  induction fuel with
  | zero => intro p used _ h; rw [makeTree] at h; cases h
  | succ fuel ih =>
    intro p used g h
    rw [makeTree] at h
    split at h
    · cases h
    · rename_i hlen
      have h0 : p 0 ≠ [] := by rintro e; rw [e] at hlen; simp at hlen
      split at h
      · cases h
      · obtain ⟨m, hm, sp⟩ := findMedian_spec f g h0
        rw [hm] at h
        simp only [Outcome.ok_bind, sp.left, sp.right] at h
        have hc : ∀ (b : Nat → Bool) used, child cap (makeTree rnd x cap fuel) m.axis (fun c => (p c).filter b) used ≠ .fail e := by
          intro b used hc
          rw [child] at hc
          split at hc
          · split at hc <;> cases hc
          · exact ih _ _ (g.filter b) hc
        generalize hL : child cap (makeTree rnd x cap fuel) m.axis
          (fun c => (p c).filter fun i => decide (x i m.axis < m.cut)) (used + 1) = L at h
        cases L with
        | ub => cases h
        | fail e' => cases h; exact hc _ _ hL
        | ok L =>
          simp only [Outcome.ok_bind] at h
          generalize hR : child cap (makeTree rnd x cap fuel) m.axis
            (fun c => (p c).filter fun i => !decide (x i m.axis < m.cut)) L.2 = R at h
          cases R with
          | ub => cases h
          | fail e' => cases h; exact hc _ _ hR
          | ok R => cases h

/-- Two points with the same coordinates are never separated. -/
theorem makeTree_coincident (f : Fair rnd x n) (cap : Nat) {i j : Nat} (hij : i ≠ j) (hx : x i = x j) :
    ∀ fuel (p : Fin 3 → List Nat) used r, Good x n p → i ∈ p 0 → j ∈ p 0 → makeTree rnd x cap fuel p used ≠ .ok r := by
  intro fuel
  induction fuel with
  | zero => intro p used r _ _ _ h; rw [makeTree] at h; cases h
  | succ fuel ih =>
    intro p used r g hi hj h
    have h0 : p 0 ≠ [] := List.ne_nil_of_mem hi
    rw [makeTree, if_neg (by have := List.length_pos_iff.2 h0; omega)] at h
    split at h
    · cases h
    · obtain ⟨m, hm, sp⟩ := findMedian_spec f g h0
      rw [hm] at h
      simp only [Outcome.ok_bind, sp.left, sp.right] at h
      obtain ⟨L, hL, h⟩ := Outcome.bind_eq_ok.1 h
      obtain ⟨R, hR, h⟩ := Outcome.bind_eq_ok.1 h
      have hc : ∀ (b : Nat → Bool) used r, b i = true → b j = true →
          child cap (makeTree rnd x cap fuel) m.axis (fun c => (p c).filter b) used ≠ .ok r := by
        intro b used r hbi hbj hc
        have gb := g.filter b
        have mi : i ∈ (p 0).filter b := List.mem_filter.2 ⟨hi, hbi⟩
        have mj : j ∈ (p 0).filter b := List.mem_filter.2 ⟨hj, hbj⟩
        rw [child, if_neg] at hc
        · exact ih _ _ r gb mi mj hc
        · intro h1
          obtain ⟨k, hk⟩ := List.length_eq_one_iff.1 h1
          have hp : ((p m.axis).filter b).Perm ((p 0).filter b) := gb.perm m.axis
          have hk' : (p m.axis).filter b = [k] := hk
          rw [hk'] at hp
          have e1 := List.mem_singleton.1 (hp.mem_iff.2 mi)
          have e2 := List.mem_singleton.1 (hp.mem_iff.2 mj)
          exact hij (e1.trans e2.symm)
      by_cases hb : x i m.axis < m.cut
      · exact hc _ _ _ (by simpa using hb) (by rw [← hx]; simpa using hb) hL
      · exact hc _ _ _ (by simpa using hb) (by rw [← hx]; simpa using hb) hR

theorem makeTree_defined (f : Fair rnd x n) (s : Separating rnd x n) (d : Distinct x n) (cap : Nat) :
    ∀ fuel (p : Fin 3 → List Nat) used, Good x n p → 2 ≤ (p 0).length → (p 0).length ≤ fuel →
      used + 2 * (p 0).length ≤ cap + 1 → ∃ r, makeTree rnd x cap fuel p used = .ok r := by
  intro fuel
  induction fuel with
  | zero => intro p used _ h2 hf; omega
  | succ fuel ih =>
    intro p used g h2 hf hcap
    have h0 : p 0 ≠ [] := by rintro e; rw [e] at h2; simp at h2
    obtain ⟨m, hm, sp⟩ := findMedian_spec f g h0
    have hr := sp.right_ne g h0
    have hfirst : ∀ c, (p c).headD 0 < n := fun c => g.lt (headD_mem (g.ne_nil h0 c))
    have hlast : ∀ c, (p c).getLastD 0 < n := fun c => g.lt (getLastD_mem (g.ne_nil h0 c))
    have hle : ∀ c, firstValue x c (p c) ≤ lastValue x c (p c) := fun c =>
      (sorted_ends x c (p c) (g.sorted c) _ (getLastD_mem (g.ne_nil h0 c))).1
    obtain ⟨c, hc⟩ : ∃ c, firstValue x c (p c) < lastValue x c (p c) := by
      by_contra hno
      push Not at hno
      have heq : ∀ k ∈ p 0, ∀ c, x k c = firstValue x c (p c) := by
        intro k hk c
        have := sorted_ends x c (p c) (g.sorted c) k ((g.perm c).mem_iff.2 hk)
        have := hno c
        linarith
      match hp : p 0, h2 with
      | i :: j :: t, _ =>
        have hi : i ∈ p 0 := by rw [hp]; simp
        have hj : j ∈ p 0 := by rw [hp]; simp
        have he : x i = x j := by funext c; rw [heq i hi, heq j hj]
        have hij := d i (g.bound i hi) j (g.bound j hj) he
        have hn := g.nodup
        rw [hp, hij] at hn
        simp at hn
    have hw := sp.widest c
    have hp := s.pos _ (hfirst c) _ (hlast c) c hc
    change 0 < rnd (lastValue x c (p c) - firstValue x c (p c)) at hp
    have hax : firstValue x m.axis (p m.axis) < lastValue x m.axis (p m.axis) := by
      rcases lt_or_eq_of_le (hle m.axis) with h | h
      · exact h
      · rw [h, sub_self, s.zero] at hw
        linarith
    have hab := s.above _ (hfirst m.axis) _ (hlast m.axis) m.axis hax
    change firstValue x m.axis (p m.axis) < middle rnd (firstValue x m.axis (p m.axis)) (lastValue x m.axis (p m.axis)) at hab
    rw [← sp.cut] at hab
    have hl : ((p 0).filter fun i => decide (x i m.axis < m.cut)) ≠ [] := by
      apply List.ne_nil_of_mem (a := (p m.axis).headD 0)
      rw [List.mem_filter]
      exact ⟨(g.perm m.axis).mem_iff.1 (headD_mem (g.ne_nil h0 m.axis)), by rw [decide_eq_true_eq]; exact hab⟩
    have gl := g.filter fun i => decide (x i m.axis < m.cut)
    have gr := g.filter fun i => !decide (x i m.axis < m.cut)
    have hlen := length_filters (fun i => decide (x i m.axis < m.cut)) (p 0)
    have hl1 := List.length_pos_iff.2 hl
    have hr1 := List.length_pos_iff.2 hr
    have hchild : ∀ (b : Nat → Bool) used, ((p 0).filter b) ≠ [] → ((p 0).filter b).length ≤ fuel →
        used + 2 * ((p 0).filter b).length ≤ cap + 1 →
        ∃ r, child cap (makeTree rnd x cap fuel) m.axis (fun c => (p c).filter b) used = .ok r := by
      intro b used hne hfu hca
      have hpos := List.length_pos_iff.2 hne
      have hla : ((p m.axis).filter b).length = ((p 0).filter b).length := ((g.perm m.axis).filter b).length_eq
      rw [child]
      split
      · rename_i h1
        change ((p m.axis).filter b).length = 1 at h1
        rw [if_pos (by omega)]
        exact ⟨_, rfl⟩
      · rename_i h1
        change ¬ ((p m.axis).filter b).length = 1 at h1
        exact ih _ _ (g.filter b) (by change 2 ≤ ((p 0).filter b).length; omega) hfu hca
    obtain ⟨L, hL⟩ := hchild _ (used + 1) hl (by omega) (by omega)
    obtain ⟨A, pA, -, cA⟩ := child_shape gl (fun r hr h2 => makeTree_shape f cap fuel _ _ r gl h2 hr) hl hL
    have hAl := pA.length_eq
    obtain ⟨R, hR⟩ := hchild _ L.2 hr (by omega) (by omega)
    refine ⟨(.node m.id m.axis m.cut L.1 R.1, R.2), ?_⟩
    rw [makeTree, if_neg (by omega), if_neg (by omega), hm]
    simp only [Outcome.ok_bind, sp.left, sp.right, hL, hR]

end Verif.KdTree
