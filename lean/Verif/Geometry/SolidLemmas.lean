import Verif.Geometry.ElementLemmas

/-! The point of an element next to a point outside of it lies on the surface. -/

noncomputable section

namespace Verif.Geometry

open Verif Verif.Mech

theorem solid_iff {n : Fin 8 → V3} {p : V3} :
    Solid n p ↔ ∃ t ∈ triangles, Hull ![n t.2.1, n t.1, face n t.2.2, hexCenter n] p := by
  constructor
  · rintro ⟨a, b, m, hf, hp⟩
    obtain ⟨t, ht, rfl, rfl, rfl⟩ := facet_iff.mp hf
    exact ⟨t, ht, hp⟩
  · rintro ⟨t, ht, hp⟩
    exact ⟨_, _, _, facet_iff.mpr ⟨t, ht, rfl, rfl, rfl⟩, hp⟩

theorem regular_triple {n : Fin 8 → V3} (hn : Regular n) {t : Fin 8 × Fin 8 × Fin 6}
    (ht : t ∈ triangles) :
    0 < triple (n t.2.1 - hexCenter n) (n t.1 - hexCenter n) (face n t.2.2 - hexCenter n) := by
  rw [← det3_eq]
  exact hn _ _ _ (facet_iff.mpr ⟨t, ht, rfl, rfl, rfl⟩)

theorem solid_min (n : Fin 8 → V3) (c : V3) :
    ∃ q, Solid n q ∧ ∀ p, Solid n p → dot (q - c) (q - c) ≤ dot (p - c) (p - c) := by
  classical
  have h := fun t : Fin 8 × Fin 8 × Fin 6 =>
    hull_min ![n t.2.1, n t.1, face n t.2.2, hexCenter n] c
  choose q hq hmin using h
  obtain ⟨t, ht, htm⟩ := Finset.exists_min_image triangles.toFinset
    (fun t => dot (q t - c) (q t - c)) ⟨(1, 0, 0), by decide⟩
  refine ⟨q t, solid_iff.mpr ⟨t, List.mem_toFinset.mp ht, hq t⟩, fun p hp => ?_⟩
  obtain ⟨t', ht', hp'⟩ := solid_iff.mp hp
  exact (htm t' (List.mem_toFinset.mpr ht')).trans (hmin t' p hp')

/-! ### Neighbors among the triangles -/

set_option maxRecDepth 20000 in
theorem across_edge : ∀ t ∈ triangles, ∃ t' ∈ triangles, t'.1 = t.2.1 ∧ t'.2.1 = t.1 := by decide

set_option maxRecDepth 20000 in
theorem before_node : ∀ t ∈ triangles, ∃ t' ∈ triangles, t'.2.1 = t.1 ∧ t'.2.2 = t.2.2 := by decide

set_option maxRecDepth 20000 in
theorem after_node : ∀ t ∈ triangles, ∃ t' ∈ triangles, t'.1 = t.2.1 ∧ t'.2.2 = t.2.2 := by decide

set_option maxRecDepth 20000 in
theorem around_face : ∀ t ∈ triangles, ∃ t1 ∈ triangles, (t1.2.1 = t.1 ∧ t1.2.2 = t.2.2) ∧
    ∃ t2 ∈ triangles, (t2.2.1 = t1.1 ∧ t2.2.2 = t.2.2) ∧
    ∃ t3 ∈ triangles, t3.2.1 = t2.1 ∧ t3.2.2 = t.2.2 ∧ t3.1 = t.2.1 := by decide

set_option maxRecDepth 20000 in
theorem around_node : ∀ t ∈ triangles, ∃ t1 ∈ triangles, (t1.2.1 = t.1 ∧ t1.2.2 = t.2.2) ∧
    ∃ t2 ∈ triangles, (t2.1 = t.2.1 ∧ t2.2.1 = t.1) ∧
    ∃ t3 ∈ triangles, (t3.1 = t.1 ∧ t3.2.2 = t2.2.2) ∧
    ∃ t4 ∈ triangles, (t4.1 = t3.2.1 ∧ t4.2.1 = t.1) ∧
    ∃ t5 ∈ triangles, t5.1 = t.1 ∧ t5.2.1 = t1.1 ∧ t5.2.2 = t4.2.2 := by decide

/-! ### The nearest point -/

/-- What is known at the nearest point `q` of the element: in the tetrahedra that contain it, no
corner lies on the near side of the plane through it. -/
structure Nearest (n : Fin 8 → V3) (c q : V3) : Prop where
  min : ∀ p, Solid n p → dot (q - c) (q - c) ≤ dot (p - c) (p - c)
  away : q - c ≠ 0

theorem Nearest.above {n : Fin 8 → V3} {c q : V3} (h : Nearest n c q) {t : Fin 8 × Fin 8 × Fin 6}
    (ht : t ∈ triangles) {u v w x : ℝ} (hu : 0 ≤ u) (hv : 0 ≤ v) (hw : 0 ≤ w) (hx : 0 < x)
    (hs : u + v + w + x = 1)
    (hq : q = u • n t.2.1 + v • n t.1 + w • face n t.2.2 + x • hexCenter n) :
    (0 ≤ dot (q - c) (n t.2.1 - hexCenter n) ∧ u * dot (q - c) (n t.2.1 - hexCenter n) = 0) ∧
    (0 ≤ dot (q - c) (n t.1 - hexCenter n) ∧ v * dot (q - c) (n t.1 - hexCenter n) = 0) ∧
    (0 ≤ dot (q - c) (face n t.2.2 - hexCenter n) ∧
      w * dot (q - c) (face n t.2.2 - hexCenter n) = 0) := by
  have ho := hull_optimal (n := ![n t.2.1, n t.1, face n t.2.2, hexCenter n]) (c := c) (q := q)
    (w := ![u, v, w, x])
    (by intro i; fin_cases i <;> first | assumption | exact hx.le)
    (by rw [Fin.sum_univ_four]; exact hs)
    (by rw [Fin.sum_univ_four]; exact hq)
    (fun p hp => h.min p (solid_iff.mpr ⟨t, ht, hp⟩))
  have h0 := ho 0
  have h1 := ho 1
  have h2 := ho 2
  have h3 := ho 3
  simp only [Matrix.cons_val_zero, Matrix.cons_val_one, Matrix.cons_val] at h0 h1 h2 h3
  have hc : dot (q - c) (hexCenter n - q) = 0 := (mul_eq_zero.mp h3.2).resolve_left hx.ne'
  have e : ∀ y : V3, dot (q - c) (y - hexCenter n) = dot (q - c) (y - q) := by
    intro y
    rw [dot_sub_right] at hc ⊢
    rw [dot_sub_right]; linarith
  rw [e, e, e]
  exact ⟨h0, h1, h2⟩

theorem triple_rot (u v w : V3) : triple u v w = triple v w u := by unfold triple; ring

theorem nearest_surface {n : Fin 8 → V3} (hn : Regular n) {c q : V3} (hS : Solid n q)
    (h : Nearest n c q) : OnSurface n q := by
  obtain ⟨t, ht, hH⟩ := solid_iff.mp hS
  obtain ⟨u, v, w, x, hu, hv, hw, hx, hs, hq⟩ := hull_four.mp hH
  rcases hx.eq_or_lt with hx0 | hx
  · refine ⟨_, _, _, facet_iff.mpr ⟨t, ht, rfl, rfl, rfl⟩, hull_three.mpr
      ⟨u, v, w, hu, hv, hw, by linarith, ?_⟩⟩
    rw [hq, ← hx0, zero_smul, add_zero]
  exfalso
  obtain ⟨⟨yR, sR⟩, ⟨yP, sP⟩, ⟨yF, sF⟩⟩ := h.above ht hu hv hw hx hs hq
  have hV := regular_triple hn ht
  have zero : ∀ {a b : ℝ}, 0 < a → a * b = 0 → b = 0 := fun ha hab =>
    (mul_eq_zero.mp hab).resolve_left ha.ne'
  -- a node and the center
  have node : ∀ {t : Fin 8 × Fin 8 × Fin 6}, t ∈ triangles → ∀ {v : ℝ}, 0 < v → v + x = 1 →
      q = v • n t.1 + x • hexCenter n → False := by
    intro t ht v hv hs hq
    obtain ⟨t1, h1, ⟨a1, b1⟩, t2, h2, ⟨a2, b2⟩, t3, h3, ⟨a3, b3⟩, t4, h4, ⟨a4, b4⟩, t5, h5, a5, b5, c5⟩ :=
      around_node t ht
    have o0 := h.above ht (u := 0) (v := v) (w := 0) le_rfl hv.le le_rfl hx (by linarith)
      (by rw [hq]; simp)
    have o1 := h.above h1 (u := v) (v := 0) (w := 0) hv.le le_rfl le_rfl hx (by linarith)
      (by rw [hq, a1]; simp)
    have o2 := h.above h2 (u := v) (v := 0) (w := 0) hv.le le_rfl le_rfl hx (by linarith)
      (by rw [hq, b2]; simp)
    have o3 := h.above h3 (u := 0) (v := v) (w := 0) le_rfl hv.le le_rfl hx (by linarith)
      (by rw [hq, a3]; simp)
    have o4 := h.above h4 (u := v) (v := 0) (w := 0) hv.le le_rfl le_rfl hx (by linarith)
      (by rw [hq, b4]; simp)
    have v0 := regular_triple hn ht
    have v1 := regular_triple hn h1
    have v2 := regular_triple hn h2
    have v3 := regular_triple hn h3
    have v4 := regular_triple hn h4
    have v5 := regular_triple hn h5
    rw [a1, b1] at v1
    rw [a2, b2] at v2
    rw [a3, b3] at v3
    rw [a4, b4] at v4
    rw [a5, b5, c5] at v5
    have hd := zero hv o0.2.1.2
    rw [triple_rot] at v0
    rw [triple_rot] at v3
    rw [triple_rot] at v5
    have T1 := turn h.away hd v1
    have T0 := turn h.away hd v0
    have T2 := turn h.away hd v2
    have T3 := turn h.away hd v3
    have T4 := turn h.away hd v4
    have T5 := turn h.away hd v5
    refine no_turn6
      (x := ![dot (cross (n t.1 - hexCenter n) (q - c)) (n t1.1 - hexCenter n),
        dot (cross (n t.1 - hexCenter n) (q - c)) (face n t.2.2 - hexCenter n),
        dot (cross (n t.1 - hexCenter n) (q - c)) (n t.2.1 - hexCenter n),
        dot (cross (n t.1 - hexCenter n) (q - c)) (face n t2.2.2 - hexCenter n),
        dot (cross (n t.1 - hexCenter n) (q - c)) (n t3.2.1 - hexCenter n),
        dot (cross (n t.1 - hexCenter n) (q - c)) (face n t4.2.2 - hexCenter n)])
      (y := ![dot (q - c) (n t1.1 - hexCenter n), dot (q - c) (face n t.2.2 - hexCenter n),
        dot (q - c) (n t.2.1 - hexCenter n), dot (q - c) (face n t2.2.2 - hexCenter n),
        dot (q - c) (n t3.2.1 - hexCenter n), dot (q - c) (face n t4.2.2 - hexCenter n)])
      ?_ T1 T0 T2 T3 T4 T5
    intro i
    fin_cases i
    · exact o1.2.1.1
    · exact o0.2.2.1
    · exact o0.1.1
    · exact o2.2.2.1
    · exact o3.1.1
    · exact o4.2.2.1
  rcases hu.eq_or_lt with hu0 | hu
  · rcases hv.eq_or_lt with hv0 | hv
    · rcases hw.eq_or_lt with hw0 | hw
      · -- the center itself
        have hqc : q = hexCenter n := by
          have : x = 1 := by linarith
          rw [hq, ← hu0, ← hv0, ← hw0, this]; simp
        have hall : ∀ i, 0 ≤ dot (q - c) (n i - hexCenter n) := by
          intro i
          have : ∃ t ∈ triangles, t.2.1 = i := by revert i; decide
          obtain ⟨t', ht', rfl⟩ := this
          exact (h.above ht' (u := 0) (v := 0) (w := 0) le_rfl le_rfl le_rfl one_pos (by norm_num)
            (by rw [hqc]; simp)).1.1
        have hsum : ∑ i, dot (q - c) (n i - hexCenter n) = 0 := by
          have h1 : ∑ i, dot (q - c) (n i - hexCenter n) =
              8 * dot (q - c) (hexCenter n) - 8 * dot (q - c) (hexCenter n) := by
            have h2 : dot (q - c) (hexCenter n) = ∑ i, (1 / 8 : ℝ) * dot (q - c) (n i) := by
              rw [← dot_sum_right]
              congr 1
              unfold hexCenter
              rw [Finset.smul_sum]
            conv_rhs => lhs; rw [h2]
            rw [Finset.mul_sum]
            simp only [dot_sub_right, Finset.sum_sub_distrib, Finset.sum_const, Finset.card_univ,
              Fintype.card_fin, nsmul_eq_mul]
            congr 1
            exact Finset.sum_congr rfl fun i _ => by ring
          rw [h1]; ring
        have hz := (Finset.sum_eq_zero_iff_of_nonneg fun i _ => hall i).mp hsum
        have hzn : ∀ i, dot (q - c) (n i - hexCenter n) = 0 := fun i => hz i (Finset.mem_univ i)
        have hzf : dot (q - c) (face n t.2.2 - hexCenter n) = 0 := by
          have e : ∀ i, dot (q - c) (n i) = dot (q - c) (hexCenter n) := fun i => by
            have := hzn i; rw [dot_sub_right] at this; linarith
          have h4 : ∀ a b d f, dot (q - c) (middle (n a) (n b) (n d) (n f)) =
              dot (q - c) (hexCenter n) := by
            intro a b d f
            unfold middle
            rw [dot_smul_right, dot_add_right, dot_add_right, dot_add_right, e, e, e, e]; ring
          rw [dot_sub_right, face_eq]
          generalize t.2.2 = k
          fin_cases k <;> simp only [h4, sub_self]
        rw [triple_perp h.away (hzn _) (hzn _) hzf] at hV
        exact lt_irrefl _ hV
      · -- the middle of a face and the center
        have hF := zero hw sF
        have hq' : q = w • face n t.2.2 + x • hexCenter n := by
          rw [hq, ← hu0, ← hv0]; simp
        have hs' : w + x = 1 := by linarith
        obtain ⟨t1, h1, ⟨a1, b1⟩, t2, h2, ⟨a2, b2⟩, t3, h3, a3, b3, c3⟩ := around_face t ht
        have o1 := h.above h1 (u := 0) (v := 0) (w := w) le_rfl le_rfl hw.le hx (by linarith)
          (by rw [hq', b1]; simp)
        have o2 := h.above h2 (u := 0) (v := 0) (w := w) le_rfl le_rfl hw.le hx (by linarith)
          (by rw [hq', b2]; simp)
        have v1 := regular_triple hn h1
        have v2 := regular_triple hn h2
        have v3 := regular_triple hn h3
        rw [a1, b1] at v1
        rw [a2, b2] at v2
        rw [a3, b3, c3] at v3
        rw [triple_rot, triple_rot] at hV v1 v2 v3
        have T0 := turn h.away hF hV
        have T1 := turn h.away hF v1
        have T2 := turn h.away hF v2
        have T3 := turn h.away hF v3
        refine no_turn4
          (x := ![dot (cross (face n t.2.2 - hexCenter n) (q - c)) (n t.2.1 - hexCenter n),
            dot (cross (face n t.2.2 - hexCenter n) (q - c)) (n t.1 - hexCenter n),
            dot (cross (face n t.2.2 - hexCenter n) (q - c)) (n t1.1 - hexCenter n),
            dot (cross (face n t.2.2 - hexCenter n) (q - c)) (n t2.1 - hexCenter n)])
          (y := ![dot (q - c) (n t.2.1 - hexCenter n), dot (q - c) (n t.1 - hexCenter n),
            dot (q - c) (n t1.1 - hexCenter n), dot (q - c) (n t2.1 - hexCenter n)])
          ?_ T0 T1 T2 T3
        intro i
        fin_cases i
        · exact yR
        · exact yP
        · exact o1.2.1.1
        · exact o2.2.1.1
    · rcases hw.eq_or_lt with hw0 | hw
      · exact node ht hv (by linarith) (by rw [hq, ← hu0, ← hw0]; simp)
      · -- the first node, the middle of the face and the center
        obtain ⟨t1, h1, a1, b1⟩ := before_node t ht
        have o1 := h.above h1 (u := v) (v := 0) (w := w) hv.le le_rfl hw.le hx (by linarith)
          (by rw [hq, ← hu0, a1, b1]; simp)
        have v1 := regular_triple hn h1
        rw [a1, b1] at v1
        rw [triple_rot] at hV
        rw [triple_rot, triple_rot] at v1
        exact triple_sides h.away (zero hv sP) (zero hw sF) yR o1.2.1.1 hV v1
  · rcases hv.eq_or_lt with hv0 | hv
    · rcases hw.eq_or_lt with hw0 | hw
      · obtain ⟨t1, h1, a1, b1⟩ := after_node t ht
        exact node h1 hu (by linarith) (by rw [hq, ← hv0, ← hw0, a1]; simp)
      · -- the second node, the middle of the face and the center
        obtain ⟨t1, h1, a1, b1⟩ := after_node t ht
        have o1 := h.above h1 (u := 0) (v := u) (w := w) le_rfl hu.le hw.le hx (by linarith)
          (by rw [hq, ← hv0, a1, b1]; simp)
        have v1 := regular_triple hn h1
        rw [a1, b1] at v1
        rw [triple_rot, triple_rot] at hV
        rw [triple_rot] at v1
        exact triple_sides h.away (zero hw sF) (zero hu sR) yP o1.1.1 hV v1
    · rcases hw.eq_or_lt with hw0 | hw
      · -- an edge and the center
        obtain ⟨t1, h1, a1, b1⟩ := across_edge t ht
        have o1 := h.above h1 (u := v) (v := u) (w := 0) hv.le hu.le le_rfl hx (by linarith)
          (by rw [hq, ← hw0, a1, b1]; simp [add_comm])
        have v1 := regular_triple hn h1
        rw [a1, b1] at v1
        exact triple_sides h.away (zero hu sR) (zero hv sP) yF o1.2.2.1 hV v1
      · rw [triple_perp h.away (zero hu sR) (zero hv sP) (zero hw sF)] at hV
        exact lt_irrefl _ hV

/-- From every point of an element that does not contain `c` the surface has a point that is at least
as near to `c`. -/
theorem solid_surface {n : Fin 8 → V3} (hn : Regular n) {c : V3} (hc : ¬ Solid n c) {p : V3}
    (hp : Solid n p) : ∃ s, OnSurface n s ∧ dot (s - c) (s - c) ≤ dot (p - c) (p - c) := by
  obtain ⟨q, hq, hmin⟩ := solid_min n c
  refine ⟨q, nearest_surface hn hq ⟨hmin, fun h0 => hc ?_⟩, hmin p hp⟩
  rw [← sub_eq_zero.mp h0]
  exact hq

end Verif.Geometry
