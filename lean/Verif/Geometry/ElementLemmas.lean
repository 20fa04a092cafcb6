import Verif.Geometry.SphereProps

/-! Helper lemmas for tetrahedra and hexahedra. -/

noncomputable section

namespace Verif.Geometry

open Verif Verif.Mech

theorem det3_eq (u v w : V3) : det3 u v w = triple u v w := by
  unfold det3 triple
  rw [Matrix.det_fin_three]
  simp only [Matrix.of_apply, Matrix.cons_val_zero, Matrix.cons_val_one, Matrix.cons_val]
  ring

/-! ### The triangles of the surface -/

theorem face_eq (n : Fin 8 → V3) (i : Fin 6) :
    face n i = match i with
      | 0 => middle (n 0) (n 1) (n 5) (n 4)
      | 1 => middle (n 1) (n 2) (n 6) (n 5)
      | 2 => middle (n 2) (n 3) (n 7) (n 6)
      | 3 => middle (n 3) (n 0) (n 4) (n 7)
      | 4 => middle (n 0) (n 3) (n 2) (n 1)
      | 5 => middle (n 4) (n 5) (n 6) (n 7) := by
  funext j
  fin_cases i <;>
    simp only [face, mid4, middle, Pi.smul_apply, Pi.add_apply, smul_eq_mul] <;> ring

theorem facet_iff {n : Fin 8 → V3} {a b m : V3} :
    Facet n a b m ↔ ∃ t ∈ triangles, a = n t.2.1 ∧ b = n t.1 ∧ m = face n t.2.2 := by
  constructor
  · rintro ⟨q, hq, rfl, h⟩
    simp only [hexQuads, List.mem_cons, List.not_mem_nil, or_false] at hq
    rcases hq with rfl | rfl | rfl | rfl | rfl | rfl
    · rcases h with ⟨rfl, rfl⟩ | ⟨rfl, rfl⟩ | ⟨rfl, rfl⟩ | ⟨rfl, rfl⟩
      · exact ⟨(1, 0, 0), by decide, rfl, rfl, (face_eq n 0).symm⟩
      · exact ⟨(5, 1, 0), by decide, rfl, rfl, (face_eq n 0).symm⟩
      · exact ⟨(4, 5, 0), by decide, rfl, rfl, (face_eq n 0).symm⟩
      · exact ⟨(0, 4, 0), by decide, rfl, rfl, (face_eq n 0).symm⟩
    · rcases h with ⟨rfl, rfl⟩ | ⟨rfl, rfl⟩ | ⟨rfl, rfl⟩ | ⟨rfl, rfl⟩
      · exact ⟨(2, 1, 1), by decide, rfl, rfl, (face_eq n 1).symm⟩
      · exact ⟨(6, 2, 1), by decide, rfl, rfl, (face_eq n 1).symm⟩
      · exact ⟨(5, 6, 1), by decide, rfl, rfl, (face_eq n 1).symm⟩
      · exact ⟨(1, 5, 1), by decide, rfl, rfl, (face_eq n 1).symm⟩
    · rcases h with ⟨rfl, rfl⟩ | ⟨rfl, rfl⟩ | ⟨rfl, rfl⟩ | ⟨rfl, rfl⟩
      · exact ⟨(3, 2, 2), by decide, rfl, rfl, (face_eq n 2).symm⟩
      · exact ⟨(7, 3, 2), by decide, rfl, rfl, (face_eq n 2).symm⟩
      · exact ⟨(6, 7, 2), by decide, rfl, rfl, (face_eq n 2).symm⟩
      · exact ⟨(2, 6, 2), by decide, rfl, rfl, (face_eq n 2).symm⟩
    · rcases h with ⟨rfl, rfl⟩ | ⟨rfl, rfl⟩ | ⟨rfl, rfl⟩ | ⟨rfl, rfl⟩
      · exact ⟨(0, 3, 3), by decide, rfl, rfl, (face_eq n 3).symm⟩
      · exact ⟨(4, 0, 3), by decide, rfl, rfl, (face_eq n 3).symm⟩
      · exact ⟨(7, 4, 3), by decide, rfl, rfl, (face_eq n 3).symm⟩
      · exact ⟨(3, 7, 3), by decide, rfl, rfl, (face_eq n 3).symm⟩
    · rcases h with ⟨rfl, rfl⟩ | ⟨rfl, rfl⟩ | ⟨rfl, rfl⟩ | ⟨rfl, rfl⟩
      · exact ⟨(3, 0, 4), by decide, rfl, rfl, (face_eq n 4).symm⟩
      · exact ⟨(2, 3, 4), by decide, rfl, rfl, (face_eq n 4).symm⟩
      · exact ⟨(1, 2, 4), by decide, rfl, rfl, (face_eq n 4).symm⟩
      · exact ⟨(0, 1, 4), by decide, rfl, rfl, (face_eq n 4).symm⟩
    · rcases h with ⟨rfl, rfl⟩ | ⟨rfl, rfl⟩ | ⟨rfl, rfl⟩ | ⟨rfl, rfl⟩
      · exact ⟨(5, 4, 5), by decide, rfl, rfl, (face_eq n 5).symm⟩
      · exact ⟨(6, 5, 5), by decide, rfl, rfl, (face_eq n 5).symm⟩
      · exact ⟨(7, 6, 5), by decide, rfl, rfl, (face_eq n 5).symm⟩
      · exact ⟨(4, 7, 5), by decide, rfl, rfl, (face_eq n 5).symm⟩
  · rintro ⟨t, ht, rfl, rfl, rfl⟩
    simp only [triangles, List.mem_cons, List.not_mem_nil, or_false] at ht
    rcases ht with rfl | rfl | rfl | rfl | rfl | rfl | rfl | rfl | rfl | rfl | rfl | rfl | rfl | rfl |
      rfl | rfl | rfl | rfl | rfl | rfl | rfl | rfl | rfl | rfl
    · exact ⟨(0, 1, 5, 4), by decide, face_eq n 0, by simp⟩
    · exact ⟨(0, 1, 5, 4), by decide, face_eq n 0, by simp⟩
    · exact ⟨(0, 1, 5, 4), by decide, face_eq n 0, by simp⟩
    · exact ⟨(0, 1, 5, 4), by decide, face_eq n 0, by simp⟩
    · exact ⟨(1, 2, 6, 5), by decide, face_eq n 1, by simp⟩
    · exact ⟨(1, 2, 6, 5), by decide, face_eq n 1, by simp⟩
    · exact ⟨(1, 2, 6, 5), by decide, face_eq n 1, by simp⟩
    · exact ⟨(1, 2, 6, 5), by decide, face_eq n 1, by simp⟩
    · exact ⟨(2, 3, 7, 6), by decide, face_eq n 2, by simp⟩
    · exact ⟨(2, 3, 7, 6), by decide, face_eq n 2, by simp⟩
    · exact ⟨(2, 3, 7, 6), by decide, face_eq n 2, by simp⟩
    · exact ⟨(2, 3, 7, 6), by decide, face_eq n 2, by simp⟩
    · exact ⟨(3, 0, 4, 7), by decide, face_eq n 3, by simp⟩
    · exact ⟨(3, 0, 4, 7), by decide, face_eq n 3, by simp⟩
    · exact ⟨(3, 0, 4, 7), by decide, face_eq n 3, by simp⟩
    · exact ⟨(3, 0, 4, 7), by decide, face_eq n 3, by simp⟩
    · exact ⟨(0, 3, 2, 1), by decide, face_eq n 4, by simp⟩
    · exact ⟨(0, 3, 2, 1), by decide, face_eq n 4, by simp⟩
    · exact ⟨(0, 3, 2, 1), by decide, face_eq n 4, by simp⟩
    · exact ⟨(0, 3, 2, 1), by decide, face_eq n 4, by simp⟩
    · exact ⟨(4, 5, 6, 7), by decide, face_eq n 5, by simp⟩
    · exact ⟨(4, 5, 6, 7), by decide, face_eq n 5, by simp⟩
    · exact ⟨(4, 5, 6, 7), by decide, face_eq n 5, by simp⟩
    · exact ⟨(4, 5, 6, 7), by decide, face_eq n 5, by simp⟩

theorem hexMid_eq (n : Fin 8 → V3) : hexMid n = hexCenter n := by
  funext j
  unfold hexMid hexCenter
  rw [Fin.sum_univ_eight]
  simp only [face, mid4, Pi.smul_apply, Pi.add_apply, smul_eq_mul]
  ring

theorem facet_hull {n : Fin 8 → V3} {a b m : V3} (h : Facet n a b m) :
    Hull n a ∧ Hull n b ∧ Hull n m := by
  obtain ⟨q, -, rfl, h⟩ := h
  have hm : Hull n (middle (n q.1) (n q.2.1) (n q.2.2.1) (n q.2.2.2)) := by
    have h1 := hull_convex (t := 1 / 2) (hull_node n q.1) (hull_node n q.2.1) (by norm_num) (by norm_num)
    have h2 := hull_convex (t := 1 / 2) (hull_node n q.2.2.1) (hull_node n q.2.2.2) (by norm_num) (by norm_num)
    have h3 := hull_convex (t := 1 / 2) h1 h2 (by norm_num) (by norm_num)
    refine (congrArg (Hull n) ?_).mp h3
    funext j
    simp only [middle, Pi.smul_apply, Pi.add_apply, Pi.sub_apply, smul_eq_mul]
    ring
  rcases h with ⟨rfl, rfl⟩ | ⟨rfl, rfl⟩ | ⟨rfl, rfl⟩ | ⟨rfl, rfl⟩ <;>
    exact ⟨hull_node n _, hull_node n _, hm⟩

theorem center_hull (n : Fin 8 → V3) : Hull n (hexCenter n) := by
  refine ⟨fun _ => 1 / 8, fun _ => by norm_num, by norm_num, ?_⟩
  unfold hexCenter
  rw [Finset.smul_sum]

theorem hull_trans {k l : Nat} {n : Fin k → V3} {m : Fin l → V3} {p : V3} (hp : Hull m p)
    (hm : ∀ i, Hull n (m i)) : Hull n p := by
  obtain ⟨w, hw, hs, rfl⟩ := hp
  choose v hv hvs hvp using hm
  refine ⟨fun j => ∑ i, w i * v i j, fun j => Finset.sum_nonneg fun i _ => mul_nonneg (hw i) (hv i j), ?_, ?_⟩
  · rw [Finset.sum_comm]
    calc ∑ i, ∑ j, w i * v i j = ∑ i, w i := Finset.sum_congr rfl fun i _ => by
          rw [← Finset.mul_sum, hvs, mul_one]
      _ = 1 := hs
  · calc ∑ i, w i • m i = ∑ i, w i • ∑ j, v i j • n j := Finset.sum_congr rfl fun i _ => by rw [← hvp]
      _ = ∑ i, ∑ j, (w i * v i j) • n j := Finset.sum_congr rfl fun i _ => by
          rw [Finset.smul_sum]; exact Finset.sum_congr rfl fun j _ => by rw [mul_smul]
      _ = ∑ j, (∑ i, w i * v i j) • n j := by
          rw [Finset.sum_comm]; exact Finset.sum_congr rfl fun j _ => by rw [Finset.sum_smul]

theorem surface_hull {n : Fin 8 → V3} {p : V3} (h : OnSurface n p) : Hull n p := by
  obtain ⟨a, b, m, hf, hp⟩ := h
  obtain ⟨h1, h2, h3⟩ := facet_hull hf
  refine hull_trans hp fun i => ?_
  fin_cases i <;> assumption

theorem solid_hull {n : Fin 8 → V3} {p : V3} (h : Solid n p) : Hull n p := by
  obtain ⟨a, b, m, hf, hp⟩ := h
  obtain ⟨h1, h2, h3⟩ := facet_hull hf
  refine hull_trans hp fun i => ?_
  fin_cases i
  · exact h1
  · exact h2
  · exact h3
  · exact center_hull n

theorem hull_four {a b c d p : V3} :
    Hull ![a, b, c, d] p ↔ ∃ u v w x : ℝ, 0 ≤ u ∧ 0 ≤ v ∧ 0 ≤ w ∧ 0 ≤ x ∧ u + v + w + x = 1 ∧
      p = u • a + v • b + w • c + x • d := by
  constructor
  · rintro ⟨w, hw, hs, hp⟩
    rw [Fin.sum_univ_four] at hs hp
    exact ⟨w 0, w 1, w 2, w 3, hw 0, hw 1, hw 2, hw 3, hs, hp⟩
  · rintro ⟨u, v, w, x, hu, hv, hw, hx, hs, hp⟩
    refine ⟨![u, v, w, x], ?_, ?_, ?_⟩
    · intro i; fin_cases i <;> assumption
    · rw [Fin.sum_univ_four]; exact hs
    · rw [Fin.sum_univ_four]; exact hp

theorem surface_solid {n : Fin 8 → V3} {p : V3} (h : OnSurface n p) : Solid n p := by
  obtain ⟨a, b, m, hf, hp⟩ := h
  obtain ⟨u, v, w, hu, hv, hw, hs, rfl⟩ := hull_three.mp hp
  exact ⟨a, b, m, hf, hull_four.mpr ⟨u, v, w, 0, hu, hv, hw, le_refl _, by linarith, by simp⟩⟩

theorem node_surface (n : Fin 8 → V3) (i : Fin 8) : OnSurface n (n i) := by
  have : ∃ t ∈ triangles, t.2.1 = i := by revert i; decide
  obtain ⟨t, ht, rfl⟩ := this
  exact ⟨_, _, _, facet_iff.mpr ⟨t, ht, rfl, rfl, rfl⟩, hull_node _ 0⟩

/-! ### The loop over the surface -/

theorem surfaceLoop_outside {center : V3} {radius : ℝ} :
    ∀ {l : List (V3 × V3 × V3)} {ai ao : Bool}, surfaceLoop center radius l ai ao = .ok .outside →
      ao = true ∧ ∀ t ∈ l, triangleSphere t.1 t.2.1 t.2.2 center radius = .outside
  | [], ai, ao, h => by
      unfold surfaceLoop at h
      cases ai <;> cases ao <;> simp at h ⊢
  | (a, b, c) :: rest, ai, ao, h => by
      unfold surfaceLoop at h
      cases ht : triangleSphere a b c center radius with
      | inside =>
        rw [ht] at h
        exact absurd (surfaceLoop_outside h).1 (by decide)
      | outside =>
        rw [ht] at h
        obtain ⟨h1, h2⟩ := surfaceLoop_outside h
        refine ⟨h1, fun t hm => ?_⟩
        rcases List.mem_cons.mp hm with rfl | hm
        · exact ht
        · exact h2 t hm
      | intersects =>
        rw [ht] at h
        simp at h

theorem surfaceLoop_inside {center : V3} {radius : ℝ} :
    ∀ {l : List (V3 × V3 × V3)} {ai ao : Bool}, surfaceLoop center radius l ai ao = .ok .inside →
      ai = true ∧ ∀ t ∈ l, triangleSphere t.1 t.2.1 t.2.2 center radius = .inside
  | [], ai, ao, h => by
      unfold surfaceLoop at h
      cases ai <;> cases ao <;> simp at h ⊢
  | (a, b, c) :: rest, ai, ao, h => by
      unfold surfaceLoop at h
      cases ht : triangleSphere a b c center radius with
      | outside =>
        rw [ht] at h
        exact absurd (surfaceLoop_inside h).1 (by decide)
      | inside =>
        rw [ht] at h
        obtain ⟨h1, h2⟩ := surfaceLoop_inside h
        refine ⟨h1, fun t hm => ?_⟩
        rcases List.mem_cons.mp hm with rfl | hm
        · exact ht
        · exact h2 t hm
      | intersects =>
        rw [ht] at h
        simp at h

theorem surfaceLoop_intersects {center : V3} {radius : ℝ} :
    ∀ {l : List (V3 × V3 × V3)} {ai ao : Bool}, surfaceLoop center radius l ai ao = .ok .intersects →
      ∃ t ∈ l, triangleSphere t.1 t.2.1 t.2.2 center radius = .intersects
  | [], ai, ao, h => by
      unfold surfaceLoop at h
      cases ai <;> cases ao <;> simp at h
  | (a, b, c) :: rest, ai, ao, h => by
      unfold surfaceLoop at h
      cases ht : triangleSphere a b c center radius with
      | outside =>
        rw [ht] at h
        obtain ⟨t, hm, h2⟩ := surfaceLoop_intersects h
        exact ⟨t, List.mem_cons_of_mem _ hm, h2⟩
      | inside =>
        rw [ht] at h
        obtain ⟨t, hm, h2⟩ := surfaceLoop_intersects h
        exact ⟨t, List.mem_cons_of_mem _ hm, h2⟩
      | intersects => exact ⟨_, List.mem_cons_self, ht⟩

theorem surfaceLoop_defined {center : V3} {radius : ℝ} :
    ∀ {l : List (V3 × V3 × V3)} {ai : Bool}, (ai = true → l ≠ []) →
      (∀ t ∈ l, triangleSphere t.1 t.2.1 t.2.2 center radius ≠ .inside) →
      ∃ s, surfaceLoop center radius l ai true = .ok s
  | [], ai, hne, _ => by
      cases ai
      · exact ⟨_, rfl⟩
      · exact absurd rfl (hne rfl)
  | (a, b, c) :: rest, ai, _, hl => by
      unfold surfaceLoop
      cases ht : triangleSphere a b c center radius with
      | outside =>
        exact surfaceLoop_defined (by simp) fun t hm => hl t (List.mem_cons_of_mem _ hm)
      | inside => exact absurd ht (hl _ List.mem_cons_self)
      | intersects => exact ⟨_, rfl⟩

/-! ### Positions relative to a plane -/

theorem pos_right {a b : ℝ} (h : 0 < a * b) (ha : 0 ≤ a) : 0 < b := by
  by_contra hb
  have := mul_nonpos_of_nonneg_of_nonpos ha (not_lt.mp hb)
  linarith

/-- Three vectors perpendicular to a vector are linearly dependent. -/
theorem triple_perp {q u v w : V3} (hq : q ≠ 0) (hu : dot q u = 0) (hv : dot q v = 0) (hw : dot q w = 0) :
    triple u v w = 0 := by
  have h : triple u v w * dot q q =
      dot q u * triple q v w + dot q v * triple u q w + dot q w * triple u v q := by
    unfold triple dot; ring
  rw [hu, hv, hw] at h
  have : dot q q ≠ 0 := fun h0 => hq (dot_self_eq_zero h0)
  have h' : triple u v w * dot q q = 0 := by rw [h]; ring
  exact (mul_eq_zero.mp h').resolve_right this

/-- Two points on the same side of the plane through `u` and `v` that contains no point nearer
cannot form tetrahedra of both orientations. -/
theorem triple_sides {q u v w w' : V3} (hq : q ≠ 0) (hu : dot q u = 0) (hv : dot q v = 0)
    (hw : 0 ≤ dot q w) (hw' : 0 ≤ dot q w') (h1 : 0 < triple u v w) (h2 : 0 < triple v u w') : False := by
  have e1 : triple u v w * dot q q = dot q w * triple u v q := by
    have : triple u v w * dot q q =
        dot q u * triple q v w + dot q v * triple u q w + dot q w * triple u v q := by
      unfold triple dot; ring
    rw [this, hu, hv]; ring
  have e2 : triple v u w' * dot q q = dot q w' * triple v u q := by
    have : triple v u w' * dot q q =
        dot q v * triple q u w' + dot q u * triple v q w' + dot q w' * triple v u q := by
      unfold triple dot; ring
    rw [this, hu, hv]; ring
  have hqq : 0 < dot q q :=
    lt_of_le_of_ne (dot_self_nonneg q) fun h0 => hq (dot_self_eq_zero h0.symm)
  have p1 : 0 < dot q w * triple u v q := by rw [← e1]; exact mul_pos h1 hqq
  have p2 : 0 < dot q w' * triple v u q := by rw [← e2]; exact mul_pos h2 hqq
  have e3 : triple v u q = - triple u v q := by unfold triple; ring
  rw [e3] at p2
  have p1' : 0 < triple u v q := pos_right p1 hw
  have p2' : 0 < - triple u v q := pos_right p2 hw'
  linarith

/-- With an axis `d` perpendicular to `q`, the ratio of the coordinates along `d × q` and `q` grows from
one vector to the next if the two and `d` are positively oriented. -/
theorem turn {q d x y : V3} (hq : q ≠ 0) (hd : dot q d = 0) (h : 0 < triple d x y) :
    dot (cross d q) x * dot q y < dot q x * dot (cross d q) y := by
  have e : triple d x y * dot q q =
      dot q x * dot (cross d q) y - dot (cross d q) x * dot q y + dot q d * triple q x y := by
    unfold triple dot cross
    simp only [Matrix.cons_val_zero, Matrix.cons_val_one, Matrix.cons_val]
    ring
  rw [hd] at e
  have hqq : 0 < dot q q :=
    lt_of_le_of_ne (dot_self_nonneg q) fun h0 => hq (dot_self_eq_zero h0.symm)
  have := mul_pos h hqq
  linarith

/-- A vector between two others of a turn is not on the boundary of the half space. -/
theorem turn_pos {xa ya xb yb xc yc : ℝ} (ha : 0 ≤ ya) (hb : 0 ≤ yb) (hc : 0 ≤ yc)
    (h1 : xa * yb < ya * xb) (h2 : xb * yc < yb * xc) : 0 < yb := by
  rcases hb.eq_or_lt with h | h
  · rw [← h] at h1 h2
    rw [mul_zero] at h1
    rw [zero_mul] at h2
    have : 0 < xb := pos_right h1 ha
    have := mul_nonneg this.le hc
    linarith
  · exact h

theorem ratio_lt {xa ya xb yb : ℝ} (ha : 0 < ya) (hb : 0 < yb) (h : xa * yb < ya * xb) :
    xa / ya < xb / yb := by
  rw [div_lt_div_iff₀ ha hb]; linarith

/-- There is no full turn of four vectors in a half space. -/
theorem no_turn4 {x y : Fin 4 → ℝ} (hy : ∀ i, 0 ≤ y i) (h0 : x 0 * y 1 < y 0 * x 1)
    (h1 : x 1 * y 2 < y 1 * x 2) (h2 : x 2 * y 3 < y 2 * x 3) (h3 : x 3 * y 0 < y 3 * x 0) : False := by
  have p0 := turn_pos (hy 3) (hy 0) (hy 1) h3 h0
  have p1 := turn_pos (hy 0) (hy 1) (hy 2) h0 h1
  have p2 := turn_pos (hy 1) (hy 2) (hy 3) h1 h2
  have p3 := turn_pos (hy 2) (hy 3) (hy 0) h2 h3
  have := ratio_lt p0 p1 h0
  have := ratio_lt p1 p2 h1
  have := ratio_lt p2 p3 h2
  have := ratio_lt p3 p0 h3
  linarith

/-- There is no full turn of six vectors in a half space. -/
theorem no_turn6 {x y : Fin 6 → ℝ} (hy : ∀ i, 0 ≤ y i) (h0 : x 0 * y 1 < y 0 * x 1)
    (h1 : x 1 * y 2 < y 1 * x 2) (h2 : x 2 * y 3 < y 2 * x 3) (h3 : x 3 * y 4 < y 3 * x 4)
    (h4 : x 4 * y 5 < y 4 * x 5) (h5 : x 5 * y 0 < y 5 * x 0) : False := by
  have p0 := turn_pos (hy 5) (hy 0) (hy 1) h5 h0
  have p1 := turn_pos (hy 0) (hy 1) (hy 2) h0 h1
  have p2 := turn_pos (hy 1) (hy 2) (hy 3) h1 h2
  have p3 := turn_pos (hy 2) (hy 3) (hy 4) h2 h3
  have p4 := turn_pos (hy 3) (hy 4) (hy 5) h3 h4
  have p5 := turn_pos (hy 4) (hy 5) (hy 0) h4 h5
  have := ratio_lt p0 p1 h0
  have := ratio_lt p1 p2 h1
  have := ratio_lt p2 p3 h2
  have := ratio_lt p3 p4 h3
  have := ratio_lt p4 p5 h4
  have := ratio_lt p5 p0 h5
  linarith

end Verif.Geometry
