import Verif.Geometry.SolidLemmas

/-! C120: tetrahedra, hexahedra and spheres. -/

noncomputable section

namespace Verif.Geometry

open Verif Verif.Mech

/-! ### Helper lemmas -/

theorem proper_of_triple {a b m c : V3} (h : triple (a - c) (b - c) (m - c) ≠ 0) : Proper b a m := by
  unfold Proper
  rw [LinearIndependent.pair_iff]
  intro s t hst
  have h0 := congrFun hst 0
  have h1 := congrFun hst 1
  have h2 := congrFun hst 2
  simp only [Pi.add_apply, Pi.smul_apply, Pi.sub_apply, smul_eq_mul, Pi.zero_apply] at h0 h1 h2
  have es : s * triple (a - c) (b - c) (m - c) = 0 := by
    unfold triple
    simp only [Pi.sub_apply]
    linear_combination ((b 1 - c 1) * (m 2 - b 2) - (b 2 - c 2) * (m 1 - b 1)) * h0 +
      ((b 2 - c 2) * (m 0 - b 0) - (b 0 - c 0) * (m 2 - b 2)) * h1 +
      ((b 0 - c 0) * (m 1 - b 1) - (b 1 - c 1) * (m 0 - b 0)) * h2
  have et : t * triple (a - c) (b - c) (m - c) = 0 := by
    unfold triple
    simp only [Pi.sub_apply]
    linear_combination ((a 1 - b 1) * (b 2 - c 2) - (a 2 - b 2) * (b 1 - c 1)) * h0 +
      ((a 2 - b 2) * (b 0 - c 0) - (a 0 - b 0) * (b 2 - c 2)) * h1 +
      ((a 0 - b 0) * (b 1 - c 1) - (a 1 - b 1) * (b 0 - c 0)) * h2
  exact ⟨(mul_eq_zero.mp es).resolve_right h, (mul_eq_zero.mp et).resolve_right h⟩

theorem mem_nodes {k : Nat} (n : Fin k → V3) (center p : V3) :
    p ∈ (List.finRange k).map (fun i => n i - center) ↔ ∃ i, p = n i - center := by
  simp only [List.mem_map, List.mem_finRange, true_and, eq_comm]

/-- The three cases of the tests for elements. -/
theorem within_cases {k : Nat} (n : Fin k → V3) (center : V3) {radius : ℝ} (hr : 0 ≤ radius)
    {m : Nat} (hm : numWithin (radius * radius) ((List.finRange k).map fun i => n i - center) = m) :
    (m = 0 → ∀ i, radius ≤ distance (n i) center) ∧ (m = k → ∀ i, distance (n i) center < radius) ∧
      (m ≠ 0 → m ≠ k → (∃ i, distance (n i) center < radius) ∧ ∃ i, radius ≤ distance (n i) center) := by
  subst hm
  refine ⟨fun h i => ?_, fun h i => ?_, fun h0 h1 => ?_⟩
  · exact (le_distance hr).mpr (numWithin_zero h _ ((mem_nodes _ _ _).mpr ⟨i, rfl⟩))
  · exact (distance_lt hr).mpr (numWithin_all (by rw [h]; simp) _ ((mem_nodes _ _ _).mpr ⟨i, rfl⟩))
  · obtain ⟨⟨p, hp, hp'⟩, q, hq, hq'⟩ := numWithin_some h0 (by rw [List.length_map, List.length_finRange]; exact h1)
    obtain ⟨i, rfl⟩ := (mem_nodes _ _ _).mp hp
    obtain ⟨j, rfl⟩ := (mem_nodes _ _ _).mp hq
    exact ⟨⟨i, (distance_lt hr).mpr hp'⟩, j, (le_distance hr).mpr hq'⟩

theorem hull_within {k : Nat} {n : Fin k → V3} {center p : V3} {radius : ℝ} (hr : 0 ≤ radius)
    (hn : ∀ i, distance (n i) center < radius) (hp : Hull n p) : distance p center < radius := by
  rw [distance_lt hr]
  exact hull_ball (hull_sub center hp) fun i => (distance_lt hr).mp (hn i)

/-! ### Tetrahedra -/

theorem tetrahedronSphere_cases {n : Fin 4 → V3} {center : V3} {radius : ℝ} (hr : 0 ≤ radius)
    {P : Outcome SphereIntersection → Prop}
    (h0 : (∀ i, radius ≤ distance (n i) center) → P (surfaceLoop center radius (tetFaces n) true true))
    (h4 : (∀ i, distance (n i) center < radius) → P (.ok .inside))
    (h1 : (∃ i, distance (n i) center < radius) → (∃ i, radius ≤ distance (n i) center) →
      P (.ok .intersects)) : P (tetrahedronSphere n center radius) := by
  unfold tetrahedronSphere
  split
  · next h => exact h4 ((within_cases n center hr h).2.1 rfl)
  · next h => exact h0 ((within_cases n center hr h).1 rfl)
  · next h' h'' =>
    obtain ⟨h2, h3⟩ := (within_cases n center hr rfl).2.2 h'' h'
    exact h1 h2 h3

theorem tetFaces_mem {n : Fin 4 → V3} {t : V3 × V3 × V3} (h : t ∈ tetFaces n) :
    ∃ i j k l : Fin 4, t = (n i, n j, n k) ∧ i ≠ j ∧ i ≠ k ∧ j ≠ k ∧ l ≠ i ∧ l ≠ j ∧ l ≠ k := by
  simp only [tetFaces, List.mem_cons, List.not_mem_nil, or_false] at h
  rcases h with rfl | rfl | rfl | rfl
  · exact ⟨0, 1, 2, 3, rfl, by decide⟩
  · exact ⟨0, 1, 3, 2, rfl, by decide⟩
  · exact ⟨0, 2, 3, 1, rfl, by decide⟩
  · exact ⟨1, 2, 3, 0, rfl, by decide⟩

theorem tetFaces_not_inside {n : Fin 4 → V3} {center : V3} {radius : ℝ} (hr : 0 ≤ radius)
    (hn : ∀ i, radius ≤ distance (n i) center) :
    ∀ t ∈ tetFaces n, triangleSphere t.1 t.2.1 t.2.2 center radius ≠ .inside := by
  intro t ht h
  obtain ⟨i, j, k, l, rfl, -⟩ := tetFaces_mem ht
  exact absurd ((C119_inside hr).mp h _ (hull_node _ 0)) (not_lt.mpr (hn i))

theorem tetFace_hull {n : Fin 4 → V3} {i j k : Fin 4} {p : V3} (hp : Hull ![n i, n j, n k] p) :
    Hull n p := by
  refine hull_trans hp fun l => ?_
  fin_cases l <;> exact hull_node n _

theorem tet_proper {n : Fin 4 → V3} (hV : det3 (n 1 - n 0) (n 2 - n 0) (n 3 - n 0) ≠ 0) :
    ∀ t ∈ tetFaces n, Proper t.1 t.2.1 t.2.2 := by
  rw [det3_eq] at hV
  intro t ht
  simp only [tetFaces, List.mem_cons, List.not_mem_nil, or_false] at ht
  rcases ht with rfl | rfl | rfl | rfl
  · refine proper_of_triple (c := n 3) fun h => hV ?_
    unfold triple at h ⊢; simp only [Pi.sub_apply] at h ⊢; linear_combination h
  · refine proper_of_triple (c := n 2) fun h => hV ?_
    unfold triple at h ⊢; simp only [Pi.sub_apply] at h ⊢; linear_combination -h
  · refine proper_of_triple (c := n 1) fun h => hV ?_
    unfold triple at h ⊢; simp only [Pi.sub_apply] at h ⊢; linear_combination h
  · refine proper_of_triple (c := n 0) fun h => hV ?_
    unfold triple at h ⊢; simp only [Pi.sub_apply] at h ⊢; linear_combination -h

/-- **C120** The test for tetrahedra does not stop with its error messages. -/
theorem C120_tet_defined (n : Fin 4 → V3) (center : V3) {radius : ℝ} (hr : 0 ≤ radius) :
    ∃ s, tetrahedronSphere n center radius = .ok s := by
  refine tetrahedronSphere_cases hr (P := fun o => ∃ s, o = .ok s) ?_ ?_ ?_
  · intro hn
    exact surfaceLoop_defined (fun _ => by simp [tetFaces]) (tetFaces_not_inside hr hn)
  · intro _; exact ⟨_, rfl⟩
  · intro _ _; exact ⟨_, rfl⟩

/-- **C120** A tetrahedron is reported to be inside the sphere exactly if every point of it is. -/
theorem C120_tet_inside {n : Fin 4 → V3} {center : V3} {radius : ℝ} (hr : 0 ≤ radius) :
    tetrahedronSphere n center radius = .ok .inside ↔ ∀ p, Hull n p → distance p center < radius := by
  constructor
  · refine tetrahedronSphere_cases hr (P := fun o => o = .ok .inside → _) ?_ ?_ ?_
    · intro hn h
      have := (surfaceLoop_inside h).2 (n 0, n 1, n 2) (by simp [tetFaces])
      exact absurd this (tetFaces_not_inside hr hn _ (by simp [tetFaces]))
    · intro hn _ p hp; exact hull_within hr hn hp
    · intro _ _ h; simp at h
  · intro hall
    refine tetrahedronSphere_cases hr (P := fun o => o = .ok .inside) ?_ ?_ ?_
    · intro hn; exact absurd (hall _ (hull_node n 0)) (not_lt.mpr (hn 0))
    · intro _; rfl
    · rintro _ ⟨i, hi⟩; exact absurd (hall _ (hull_node n i)) (not_lt.mpr hi)

/-- **C120** A tetrahedron with a volume, reported to intersect the sphere, has points at most and points
at least the radius away from the center. -/
theorem C120_tet_intersects {n : Fin 4 → V3} {center : V3} {radius : ℝ} (hr : 0 ≤ radius)
    (hV : det3 (n 1 - n 0) (n 2 - n 0) (n 3 - n 0) ≠ 0)
    (h : tetrahedronSphere n center radius = .ok .intersects) :
    (∃ p, Hull n p ∧ distance p center ≤ radius) ∧ ∃ p, Hull n p ∧ radius ≤ distance p center := by
  revert h
  refine tetrahedronSphere_cases hr (P := fun o => o = .ok .intersects → _) ?_ ?_ ?_
  · intro _ h
    obtain ⟨t, ht, h⟩ := surfaceLoop_intersects h
    have hp := tet_proper hV t ht
    obtain ⟨i, j, k, l, rfl, -⟩ := tetFaces_mem ht
    obtain ⟨⟨p, hp1, hp2⟩, q, hq1, hq2⟩ := C119_intersects_partial hr hp h
    exact ⟨⟨p, tetFace_hull hp1, hp2⟩, q, tetFace_hull hq1, hq2⟩
  · intro _ h; simp at h
  · rintro ⟨i, hi⟩ ⟨j, hj⟩ _
    exact ⟨⟨_, hull_node n i, hi.le⟩, _, hull_node n j, hj⟩

/-- **C120** A tetrahedron reported to be outside the sphere: no face has a point in the sphere. -/
theorem C120_tet_faces {n : Fin 4 → V3} {center : V3} {radius : ℝ} (hr : 0 ≤ radius)
    (h : tetrahedronSphere n center radius = .ok .outside) {p : V3} (l : Fin 4)
    (hp : ∃ w : Fin 4 → ℝ, (∀ i, 0 ≤ w i) ∧ ∑ i, w i = 1 ∧ w l = 0 ∧ p = ∑ i, w i • n i) :
    radius ≤ distance p center := by
  revert h
  refine tetrahedronSphere_cases hr (P := fun o => o = .ok .outside → _) ?_ ?_ ?_
  · intro _ h
    have h2 := (surfaceLoop_outside h).2
    obtain ⟨w, hw, hs, hl, rfl⟩ := hp
    rw [Fin.sum_univ_four] at hs ⊢
    fin_cases l
    · replace hl : w 0 = 0 := hl
      refine C119_outside hr (h2 (n 1, n 2, n 3) (by simp [tetFaces])) _
        (hull_three.mpr ⟨w 1, w 2, w 3, hw 1, hw 2, hw 3, by linarith, by rw [hl]; simp⟩)
    · replace hl : w 1 = 0 := hl
      refine C119_outside hr (h2 (n 0, n 2, n 3) (by simp [tetFaces])) _
        (hull_three.mpr ⟨w 0, w 2, w 3, hw 0, hw 2, hw 3, by linarith, by rw [hl]; simp⟩)
    · replace hl : w 2 = 0 := hl
      refine C119_outside hr (h2 (n 0, n 1, n 3) (by simp [tetFaces])) _
        (hull_three.mpr ⟨w 0, w 1, w 3, hw 0, hw 1, hw 3, by linarith, by rw [hl]; simp⟩)
    · replace hl : w 3 = 0 := hl
      refine C119_outside hr (h2 (n 0, n 1, n 2) (by simp [tetFaces])) _
        (hull_three.mpr ⟨w 0, w 1, w 2, hw 0, hw 1, hw 2, by linarith, by rw [hl]; simp⟩)
  · intro _ h; simp at h
  · intro _ _ h; simp at h

/-- **C120** A tetrahedron with a volume that does not contain the center of the sphere and is reported to
be outside has no point in the sphere. -/
theorem C120_tet_outside_partial {n : Fin 4 → V3} {center : V3} {radius : ℝ} (hr : 0 ≤ radius)
    (hV : det3 (n 1 - n 0) (n 2 - n 0) (n 3 - n 0) ≠ 0) (hc : ¬ Hull n center)
    (h : tetrahedronSphere n center radius = .ok .outside) :
    ∀ p, Hull n p → radius ≤ distance p center := by
  intro p hp
  obtain ⟨q, hq, hmin⟩ := hull_min n center
  obtain ⟨w, hw, hs, hqw⟩ := hq
  have hopt := hull_optimal hw hs hqw hmin
  have hne : q - center ≠ 0 := fun h0 => hc (by rw [← sub_eq_zero.mp h0]; exact ⟨w, hw, hs, hqw⟩)
  have hzero : ∃ l, w l = 0 := by
    by_contra hall
    push Not at hall
    have hz : ∀ i, dot (q - center) (n i - q) = 0 := fun i =>
      (mul_eq_zero.mp (hopt i).2).resolve_left (hall i)
    have hd : ∀ i, dot (q - center) (n i - n 0) = 0 := by
      intro i
      have h1 := hz i
      have h2 := hz 0
      rw [dot_sub_right] at h1 h2 ⊢; linarith
    rw [det3_eq] at hV
    exact hV (triple_perp hne (hd 1) (hd 2) (hd 3))
  obtain ⟨l, hl⟩ := hzero
  have h1 := C120_tet_faces hr h l ⟨w, hw, hs, hl, hqw⟩
  rw [le_distance hr] at h1 ⊢
  exact h1.trans (hmin p hp)

/-- The tetrahedron of the examples. -/
def bigTet : Fin 4 → V3 := ![![-10, -10, -10], ![30, -10, -10], ![-10, 30, -10], ![-10, -10, 30]]

theorem bigTet_volume : det3 (bigTet 1 - bigTet 0) (bigTet 2 - bigTet 0) (bigTet 3 - bigTet 0) = 64000 := by
  rw [det3_eq]
  unfold triple bigTet
  simp only [Pi.sub_apply, Matrix.cons_val_zero, Matrix.cons_val_one, Matrix.cons_val]
  norm_num

/-- **C120** disagreement: a tetrahedron that contains the whole sphere is reported to be outside. -/
theorem C120_tet_broken : ∃ (n : Fin 4 → V3) (center : V3) (radius : ℝ), 0 < radius ∧
    det3 (n 1 - n 0) (n 2 - n 0) (n 3 - n 0) ≠ 0 ∧
    tetrahedronSphere n center radius = .ok .outside ∧ Hull n center := by
  refine ⟨bigTet, ![0, 0, 0], 1, one_pos, by rw [bigTet_volume]; norm_num, ?_, ?_⟩
  · have hnodes : ∀ i, (1 : ℝ) ≤ distance (bigTet i) ![0, 0, 0] := by
      intro i
      rw [le_distance (by norm_num)]
      unfold dot bigTet
      fin_cases i <;>
        simp only [Pi.sub_apply, Matrix.cons_val_zero, Matrix.cons_val_one, Matrix.cons_val,
          Fin.zero_eta, Fin.mk_one, Fin.reduceFinMk] <;> norm_num
    obtain ⟨s, hs⟩ := C120_tet_defined bigTet ![0, 0, 0] (radius := 1) (by norm_num)
    cases s with
    | outside => exact hs
    | inside =>
      exact absurd ((C120_tet_inside (by norm_num)).mp hs _ (hull_node _ 0)) (not_lt.mpr (hnodes 0))
    | intersects =>
      exfalso
      revert hs
      refine tetrahedronSphere_cases (by norm_num) (P := fun o => o = .ok .intersects → _) ?_ ?_ ?_
      · intro _ h
        obtain ⟨t, ht, h⟩ := surfaceLoop_intersects h
        have hp := tet_proper (n := bigTet) (by rw [bigTet_volume]; norm_num) t ht
        obtain ⟨⟨p, hp1, hp2⟩, _⟩ := C119_intersects_partial (by norm_num) hp h
        rw [distance_le (by norm_num)] at hp2
        obtain ⟨u, v, w, hu, hv, hw, hs, rfl⟩ := hull_three.mp hp1
        simp only [tetFaces, List.mem_cons, List.not_mem_nil, or_false] at ht
        unfold dot at hp2
        rcases ht with rfl | rfl | rfl | rfl <;>
          simp only [bigTet, Pi.sub_apply, Pi.add_apply, Pi.smul_apply, smul_eq_mul,
            Matrix.cons_val_zero, Matrix.cons_val_one, Matrix.cons_val] at hp2
        · have e : u * -10 + v * -10 + w * -10 - 0 = -10 := by linarith
          rw [e] at hp2
          nlinarith [mul_self_nonneg (u * -10 + v * 30 + w * -10 - 0),
            mul_self_nonneg (u * -10 + v * -10 + w * 30 - 0)]
        · have e : u * -10 + v * -10 + w * -10 - 0 = -10 := by linarith
          rw [e] at hp2
          nlinarith [mul_self_nonneg (u * -10 + v * 30 + w * -10 - 0),
            mul_self_nonneg (u * -10 + v * -10 + w * 30 - 0)]
        · have e : u * -10 + v * -10 + w * -10 - 0 = -10 := by linarith
          rw [e] at hp2
          nlinarith [mul_self_nonneg (u * -10 + v * 30 + w * -10 - 0),
            mul_self_nonneg (u * -10 + v * -10 + w * 30 - 0)]
        · have hu' : u = 1 - v - w := by linarith
          subst hu'
          nlinarith [mul_self_nonneg ((1 - v - w) * 30 + v * -10 + w * -10 - 10 / 3),
            mul_self_nonneg ((1 - v - w) * -10 + v * 30 + w * -10 - 10 / 3),
            mul_self_nonneg ((1 - v - w) * -10 + v * -10 + w * 30 - 10 / 3)]
      · intro h _; exact absurd (h 0) (not_lt.mpr (hnodes 0))
      · rintro ⟨i, hi⟩ _ _; exact absurd hi (not_lt.mpr (hnodes i))
  · refine ⟨fun _ => 1 / 4, fun _ => by norm_num, by norm_num, ?_⟩
    rw [Fin.sum_univ_four]
    funext i
    unfold bigTet
    fin_cases i <;>
      simp only [Pi.add_apply, Pi.smul_apply, smul_eq_mul, Matrix.cons_val_zero, Matrix.cons_val_one,
        Matrix.cons_val, Fin.zero_eta, Fin.mk_one, Fin.reduceFinMk] <;> norm_num

theorem bigTet_halfspace {p : V3} (h : Hull bigTet p) : p 0 ≤ 30 := by
  obtain ⟨w, hw, hs, rfl⟩ := h
  have e : ∀ i, bigTet i 0 ≤ 30 := by
    intro i
    fin_cases i <;> simp [bigTet] <;> norm_num
  calc (∑ i, w i • bigTet i) 0 = ∑ i, w i * bigTet i 0 := by
        rw [Finset.sum_apply]; rfl
    _ ≤ ∑ i, w i * 30 := Finset.sum_le_sum fun i _ => mul_le_mul_of_nonneg_left (e i) (hw i)
    _ = 30 := by rw [← Finset.sum_mul, hs, one_mul]

/-- A tetrahedron beside the sphere: the hypotheses of `C120_tet_outside_partial` and `C120_tet_faces`. -/
example : det3 (bigTet 1 - bigTet 0) (bigTet 2 - bigTet 0) (bigTet 3 - bigTet 0) ≠ 0 ∧
    ¬ Hull bigTet ![40, 0, 0] ∧ tetrahedronSphere bigTet ![40, 0, 0] 1 = .ok .outside := by
  have hV : det3 (bigTet 1 - bigTet 0) (bigTet 2 - bigTet 0) (bigTet 3 - bigTet 0) ≠ 0 := by
    rw [bigTet_volume]; norm_num
  have far : ∀ p, Hull bigTet p → 1 < distance p ![40, 0, 0] := by
    intro p hp
    have := bigTet_halfspace hp
    rw [lt_distance (by norm_num)]
    unfold dot
    simp only [Pi.sub_apply, Matrix.cons_val_zero, Matrix.cons_val_one, Matrix.cons_val, sub_zero]
    nlinarith [mul_self_nonneg (p 1), mul_self_nonneg (p 2)]
  refine ⟨hV, fun h => ?_, ?_⟩
  · have := bigTet_halfspace h
    simp only [Matrix.cons_val_zero] at this
    norm_num at this
  · obtain ⟨s, h⟩ := C120_tet_defined bigTet ![40, 0, 0] (radius := 1) (by norm_num)
    cases s with
    | outside => exact h
    | inside => exact absurd ((C120_tet_inside (by norm_num)).mp h _ (hull_node _ 0)) (not_lt.mpr (far _ (hull_node _ 0)).le)
    | intersects =>
      obtain ⟨⟨p, hp1, hp2⟩, -⟩ := C120_tet_intersects (by norm_num) hV h
      exact absurd (far p hp1) (not_lt.mpr hp2)

/-- A tetrahedron with a node at the center: the hypotheses of `C120_tet_intersects`. -/
example : tetrahedronSphere bigTet ![30, -10, -10] 1 = .ok .intersects := by
  refine tetrahedronSphere_cases (by norm_num) (P := fun o => o = .ok .intersects) ?_ ?_ ?_
  · intro h
    have := h 1
    rw [le_distance (by norm_num)] at this
    simp [bigTet, dot] at this
    norm_num at this
  · intro h
    have := h 0
    rw [distance_lt (by norm_num)] at this
    simp [bigTet, dot] at this
    norm_num at this
  · intro _ _; rfl

/-- A tetrahedron in a large sphere. -/
example : tetrahedronSphere bigTet ![0, 0, 0] 100 = .ok .inside := by
  refine (C120_tet_inside (by norm_num)).mpr fun p hp => hull_within (by norm_num) (fun i => ?_) hp
  rw [distance_lt (by norm_num)]
  unfold dot
  fin_cases i <;> simp [bigTet] <;> norm_num

end Verif.Geometry
