import Verif.Geometry.ElementProps

/-! C120, continued: hexahedra and spheres. -/

noncomputable section

namespace Verif.Geometry

open Verif Verif.Mech

/-! ### Helper lemmas -/

theorem hexahedronSphere_cases {n : Fin 8 → V3} {center : V3} {radius : ℝ} (hr : 0 ≤ radius)
    {P : Outcome SphereIntersection → Prop}
    (h0 : (∀ i, radius ≤ distance (n i) center) → P (surfaceLoop center radius (hexFaces n) true true))
    (h8 : (∀ i, distance (n i) center < radius) → P (.ok .inside))
    (h1 : (∃ i, distance (n i) center < radius) → (∃ i, radius ≤ distance (n i) center) →
      P (.ok .intersects)) : P (hexahedronSphere n center radius) := by
  unfold hexahedronSphere
  split
  · next h => exact h8 ((within_cases n center hr h).2.1 rfl)
  · next h => exact h0 ((within_cases n center hr h).1 rfl)
  · next h' h'' =>
    obtain ⟨h2, h3⟩ := (within_cases n center hr rfl).2.2 h'' h'
    exact h1 h2 h3

theorem hexFaces_mem {n : Fin 8 → V3} {t : V3 × V3 × V3} (h : t ∈ hexFaces n) :
    ∃ s ∈ triangles, t = (n s.1, n s.2.1, face n s.2.2) := by
  obtain ⟨s, hs, rfl⟩ := List.mem_map.mp h
  exact ⟨s, hs, rfl⟩

theorem hexFaces_not_inside {n : Fin 8 → V3} {center : V3} {radius : ℝ} (hr : 0 ≤ radius)
    (hn : ∀ i, radius ≤ distance (n i) center) :
    ∀ t ∈ hexFaces n, triangleSphere t.1 t.2.1 t.2.2 center radius ≠ .inside := by
  intro t ht h
  obtain ⟨s, -, rfl⟩ := hexFaces_mem ht
  exact absurd ((C119_inside hr).mp h _ (hull_node _ 0)) (not_lt.mpr (hn s.1))

theorem hexFaces_ne (n : Fin 8 → V3) : hexFaces n ≠ [] := by
  simp [hexFaces, triangles]

theorem hull_swap {a b c p : V3} (h : Hull ![a, b, c] p) : Hull ![b, a, c] p := by
  obtain ⟨u, v, w, hu, hv, hw, hs, rfl⟩ := hull_three.mp h
  exact hull_three.mpr ⟨v, u, w, hv, hu, hw, by linarith, by rw [add_comm (v • b)]⟩

theorem hexFaces_surface {n : Fin 8 → V3} {t : V3 × V3 × V3} (ht : t ∈ hexFaces n) {p : V3}
    (hp : Hull ![t.1, t.2.1, t.2.2] p) : OnSurface n p := by
  obtain ⟨s, hs, rfl⟩ := hexFaces_mem ht
  exact ⟨_, _, _, facet_iff.mpr ⟨s, hs, rfl, rfl, rfl⟩, hull_swap hp⟩

theorem surface_hexFaces {n : Fin 8 → V3} {p : V3} (h : OnSurface n p) :
    ∃ t ∈ hexFaces n, Hull ![t.1, t.2.1, t.2.2] p := by
  obtain ⟨a, b, m, hf, hp⟩ := h
  obtain ⟨s, hs, rfl, rfl, rfl⟩ := facet_iff.mp hf
  exact ⟨_, List.mem_map.mpr ⟨s, hs, rfl⟩, hull_swap hp⟩

theorem hex_proper {n : Fin 8 → V3} (hn : Regular n) : ∀ t ∈ hexFaces n, Proper t.1 t.2.1 t.2.2 := by
  intro t ht
  obtain ⟨s, hs, rfl⟩ := hexFaces_mem ht
  exact proper_of_triple (regular_triple hn hs).ne'

theorem solid_node (n : Fin 8 → V3) (i : Fin 8) : Solid n (n i) := surface_solid (node_surface n i)

/-! ### The properties -/

/-- **C120** The test for hexahedra does not stop with its error messages. -/
theorem C120_hex_defined (n : Fin 8 → V3) (center : V3) {radius : ℝ} (hr : 0 ≤ radius) :
    ∃ s, hexahedronSphere n center radius = .ok s := by
  refine hexahedronSphere_cases hr (P := fun o => ∃ s, o = .ok s) ?_ ?_ ?_
  · intro hn
    exact surfaceLoop_defined (fun _ => hexFaces_ne n) (hexFaces_not_inside hr hn)
  · intro _; exact ⟨_, rfl⟩
  · intro _ _; exact ⟨_, rfl⟩

/-- **C120** A hexahedron is reported to be inside the sphere exactly if every point of it is. -/
theorem C120_hex_inside {n : Fin 8 → V3} {center : V3} {radius : ℝ} (hr : 0 ≤ radius) :
    hexahedronSphere n center radius = .ok .inside ↔ ∀ p, Solid n p → distance p center < radius := by
  constructor
  · refine hexahedronSphere_cases hr (P := fun o => o = .ok .inside → _) ?_ ?_ ?_
    · intro hn h
      obtain ⟨t, ht⟩ := List.exists_mem_of_ne_nil _ (hexFaces_ne n)
      exact absurd ((surfaceLoop_inside h).2 t ht) (hexFaces_not_inside hr hn t ht)
    · intro hn _ p hp; exact hull_within hr hn (solid_hull hp)
    · intro _ _ h; simp at h
  · intro hall
    refine hexahedronSphere_cases hr (P := fun o => o = .ok .inside) ?_ ?_ ?_
    · intro hn; exact absurd (hall _ (solid_node n 0)) (not_lt.mpr (hn 0))
    · intro _; rfl
    · rintro _ ⟨i, hi⟩; exact absurd (hall _ (solid_node n i)) (not_lt.mpr hi)

/-- **C120** An undistorted hexahedron reported to intersect the sphere has points at most and points at
least the radius away from the center. -/
theorem C120_hex_intersects_partial {n : Fin 8 → V3} {center : V3} {radius : ℝ} (hr : 0 ≤ radius)
    (hn : Regular n) (h : hexahedronSphere n center radius = .ok .intersects) :
    (∃ p, OnSurface n p ∧ distance p center ≤ radius) ∧ ∃ p, OnSurface n p ∧ radius ≤ distance p center := by
  revert h
  refine hexahedronSphere_cases hr (P := fun o => o = .ok .intersects → _) ?_ ?_ ?_
  · intro _ h
    obtain ⟨t, ht, h⟩ := surfaceLoop_intersects h
    obtain ⟨⟨p, hp1, hp2⟩, q, hq1, hq2⟩ := C119_intersects_partial hr (hex_proper hn t ht) h
    exact ⟨⟨p, hexFaces_surface ht hp1, hp2⟩, q, hexFaces_surface ht hq1, hq2⟩
  · intro _ h; simp at h
  · rintro ⟨i, hi⟩ ⟨j, hj⟩ _
    exact ⟨⟨_, node_surface n i, hi.le⟩, _, node_surface n j, hj⟩

/-- **C120** A hexahedron reported to be outside the sphere has no point of its surface in the sphere. -/
theorem C120_hex_surface {n : Fin 8 → V3} {center : V3} {radius : ℝ} (hr : 0 ≤ radius)
    (h : hexahedronSphere n center radius = .ok .outside) :
    ∀ p, OnSurface n p → radius ≤ distance p center := by
  intro p hp
  revert h
  refine hexahedronSphere_cases hr (P := fun o => o = .ok .outside → _) ?_ ?_ ?_
  · intro _ h
    obtain ⟨t, ht, hp⟩ := surface_hexFaces hp
    exact C119_outside hr ((surfaceLoop_outside h).2 t ht) p hp
  · intro _ h; simp at h
  · intro _ _ h; simp at h

/-- **C120** An undistorted hexahedron that does not contain the center of the sphere and is reported to
be outside has no point in the sphere. -/
theorem C120_hex_outside_partial {n : Fin 8 → V3} {center : V3} {radius : ℝ} (hr : 0 ≤ radius)
    (hn : Regular n) (hc : ¬ Solid n center)
    (h : hexahedronSphere n center radius = .ok .outside) :
    ∀ p, Solid n p → radius ≤ distance p center := by
  intro p hp
  obtain ⟨s, hs, hle⟩ := solid_surface hn hc hp
  have := C120_hex_surface hr h s hs
  rw [le_distance hr] at this ⊢
  exact this.trans hle

/-- **C120** An undistorted hexahedron none of whose surface points is within the radius is reported to be
outside, whether the sphere is in it or not. -/
theorem C120_hex_far {n : Fin 8 → V3} {center : V3} {radius : ℝ} (hr : 0 ≤ radius) (hn : Regular n)
    (hs : ∀ p, OnSurface n p → radius < distance p center) :
    hexahedronSphere n center radius = .ok .outside := by
  obtain ⟨s, h⟩ := C120_hex_defined n center hr
  cases s with
  | outside => exact h
  | inside => exact absurd ((C120_hex_inside hr).mp h _ (solid_node n 0)) (not_lt.mpr (hs _ (node_surface n 0)).le)
  | intersects =>
    obtain ⟨⟨p, hp1, hp2⟩, -⟩ := C120_hex_intersects_partial hr hn h
    exact absurd (hs p hp1) (not_lt.mpr hp2)

/-! ### Bricks -/

theorem brick_triple (o u v w : V3) : ∀ t ∈ triangles,
    triple (brick o u v w t.2.1 - hexCenter (brick o u v w)) (brick o u v w t.1 - hexCenter (brick o u v w))
      (face (brick o u v w) t.2.2 - hexCenter (brick o u v w)) = triple u v w / 4 := by
  have e : ∀ j, hexCenter (brick o u v w) j = o j + (u j + v j + w j) / 2 := by
    intro j
    rw [← hexMid_eq]
    simp only [hexMid, face, mid4, brick, Matrix.cons_val_zero, Matrix.cons_val_one, Matrix.cons_val, Pi.add_apply]
    ring
  intro t ht
  unfold triple
  simp only [Pi.sub_apply, e]
  simp only [triangles, List.mem_cons, List.not_mem_nil, or_false] at ht
  rcases ht with rfl | rfl | rfl | rfl | rfl | rfl | rfl | rfl | rfl | rfl | rfl | rfl |
    rfl | rfl | rfl | rfl | rfl | rfl | rfl | rfl | rfl | rfl | rfl | rfl <;>
    (simp only [face, mid4, brick, Matrix.cons_val_zero, Matrix.cons_val_one, Matrix.cons_val, Pi.add_apply]
     ring)

/-- A parallelepiped with right-handed edges is not distorted. -/
theorem brick_regular {o u v w : V3} (h : 0 < det3 u v w) : Regular (brick o u v w) := by
  intro a b m hf
  obtain ⟨t, ht, rfl, rfl, rfl⟩ := facet_iff.mp hf
  rw [det3_eq, brick_triple o u v w t ht]
  rw [det3_eq] at h
  linarith

/-- The points of the surface lie on planes that contain a face. -/
theorem surface_plane {n : Fin 8 → V3} {p : V3} (h : OnSurface n p) :
    ∃ q ∈ hexQuads, ∀ (g : V3) (d : ℝ), dot g (n q.1) = d → dot g (n q.2.1) = d →
      dot g (n q.2.2.1) = d → dot g (n q.2.2.2) = d → dot g p = d := by
  obtain ⟨a, b, m, ⟨q, hq, rfl, hf⟩, hp⟩ := h
  obtain ⟨u, v, w, hu, hv, hw, hs, rfl⟩ := hull_three.mp hp
  refine ⟨q, hq, fun g d h1 h2 h3 h4 => ?_⟩
  have hm : dot g (middle (n q.1) (n q.2.1) (n q.2.2.1) (n q.2.2.2)) = d := by
    unfold middle dot at *
    simp only [Pi.smul_apply, Pi.add_apply, smul_eq_mul] at *
    linear_combination (1 / 4) * h1 + (1 / 4) * h2 + (1 / 4) * h3 + (1 / 4) * h4
  have key : ∀ {a b : V3}, dot g a = d → dot g b = d →
      dot g (u • a + v • b + w • middle (n q.1) (n q.2.1) (n q.2.2.1) (n q.2.2.2)) = d := by
    intro a b ha hb
    unfold dot at *
    simp only [Pi.smul_apply, Pi.add_apply, smul_eq_mul] at *
    linear_combination u * ha + v * hb + w * hm + d * hs
  rcases hf with ⟨rfl, rfl⟩ | ⟨rfl, rfl⟩ | ⟨rfl, rfl⟩ | ⟨rfl, rfl⟩
  · exact key h1 h2
  · exact key h2 h3
  · exact key h3 h4
  · exact key h4 h1

/-- The cube of the examples. -/
def bigCube : Fin 8 → V3 := brick ![-10, -10, -10] ![20, 0, 0] ![0, 20, 0] ![0, 0, 20]

theorem bigCube_regular : Regular bigCube := by
  apply brick_regular
  rw [det3_eq]
  unfold triple
  simp only [Matrix.cons_val_zero, Matrix.cons_val_one, Matrix.cons_val]
  norm_num

theorem bigCube_surface {p : V3} (h : OnSurface bigCube p) :
    p 0 = 10 ∨ p 0 = -10 ∨ p 1 = 10 ∨ p 1 = -10 ∨ p 2 = 10 ∨ p 2 = -10 := by
  obtain ⟨q, hq, hg⟩ := surface_plane h
  simp only [hexQuads, List.mem_cons, List.not_mem_nil, or_false] at hq
  have ex : ∀ x : V3, dot ![1, 0, 0] x = x 0 := by intro x; simp [dot]
  have ey : ∀ x : V3, dot ![0, 1, 0] x = x 1 := by intro x; simp [dot]
  have ez : ∀ x : V3, dot ![0, 0, 1] x = x 2 := by intro x; simp [dot]
  rcases hq with rfl | rfl | rfl | rfl | rfl | rfl
  · have := hg ![0, 1, 0] (-10) (by rw [ey]; simp [bigCube, brick]) (by rw [ey]; simp [bigCube, brick])
      (by rw [ey]; simp [bigCube, brick]) (by rw [ey]; simp [bigCube, brick])
    rw [ey] at this; tauto
  · have := hg ![1, 0, 0] 10 (by rw [ex]; simp [bigCube, brick]; norm_num) (by rw [ex]; simp [bigCube, brick]; norm_num)
      (by rw [ex]; simp [bigCube, brick]; norm_num) (by rw [ex]; simp [bigCube, brick]; norm_num)
    rw [ex] at this; tauto
  · have := hg ![0, 1, 0] 10 (by rw [ey]; simp [bigCube, brick]; norm_num) (by rw [ey]; simp [bigCube, brick]; norm_num)
      (by rw [ey]; simp [bigCube, brick]; norm_num) (by rw [ey]; simp [bigCube, brick]; norm_num)
    rw [ey] at this; tauto
  · have := hg ![1, 0, 0] (-10) (by rw [ex]; simp [bigCube, brick]) (by rw [ex]; simp [bigCube, brick])
      (by rw [ex]; simp [bigCube, brick]) (by rw [ex]; simp [bigCube, brick])
    rw [ex] at this; tauto
  · have := hg ![0, 0, 1] (-10) (by rw [ez]; simp [bigCube, brick]) (by rw [ez]; simp [bigCube, brick])
      (by rw [ez]; simp [bigCube, brick]) (by rw [ez]; simp [bigCube, brick])
    rw [ez] at this; tauto
  · have := hg ![0, 0, 1] 10 (by rw [ez]; simp [bigCube, brick]; norm_num) (by rw [ez]; simp [bigCube, brick]; norm_num)
      (by rw [ez]; simp [bigCube, brick]; norm_num) (by rw [ez]; simp [bigCube, brick]; norm_num)
    rw [ez] at this; tauto

theorem bigCube_far {p : V3} (h : OnSurface bigCube p) : 1 < distance p ![0, 0, 0] := by
  rw [lt_distance (by norm_num)]
  unfold dot
  simp only [Pi.sub_apply, Matrix.cons_val_zero, Matrix.cons_val_one, Matrix.cons_val, sub_zero]
  rcases bigCube_surface h with h | h | h | h | h | h <;> rw [h] <;>
    nlinarith [mul_self_nonneg (p 0), mul_self_nonneg (p 1), mul_self_nonneg (p 2)]

theorem bigCube_halfspace {p : V3} (h : Solid bigCube p) : p 0 ≤ 10 := by
  obtain ⟨w, hw, hs, rfl⟩ := solid_hull h
  have e : ∀ i, bigCube i 0 ≤ 10 := by
    intro i
    fin_cases i <;> simp [bigCube, brick] <;> norm_num
  calc (∑ i, w i • bigCube i) 0 = ∑ i, w i * bigCube i 0 := by
        rw [Finset.sum_apply]; rfl
    _ ≤ ∑ i, w i * 10 := Finset.sum_le_sum fun i _ => mul_le_mul_of_nonneg_left (e i) (hw i)
    _ = 10 := by rw [← Finset.sum_mul, hs, one_mul]

/-- A cube beside the sphere: the hypotheses of `C120_hex_outside_partial` and `C120_hex_surface`. -/
example : Regular bigCube ∧ ¬ Solid bigCube ![20, 0, 0] ∧
    hexahedronSphere bigCube ![20, 0, 0] 1 = .ok .outside := by
  refine ⟨bigCube_regular, fun h => ?_, C120_hex_far (by norm_num) bigCube_regular fun p hp => ?_⟩
  · have := bigCube_halfspace h
    simp only [Matrix.cons_val_zero] at this
    norm_num at this
  · have := bigCube_halfspace (surface_solid hp)
    rw [lt_distance (by norm_num)]
    unfold dot
    simp only [Pi.sub_apply, Matrix.cons_val_zero, Matrix.cons_val_one, Matrix.cons_val, sub_zero]
    nlinarith [mul_self_nonneg (p 1), mul_self_nonneg (p 2)]

/-- A cube whose face contains the center: the hypotheses of `C120_hex_intersects_partial`. -/
example : Regular bigCube ∧ hexahedronSphere bigCube ![10, 0, 0] 1 = .ok .intersects := by
  refine ⟨bigCube_regular, ?_⟩
  have hmid : OnSurface bigCube ![10, 0, 0] := by
    refine ⟨_, _, _, facet_iff.mpr ⟨(2, 1, 1), by decide, rfl, rfl, rfl⟩, ?_⟩
    have e : face bigCube 1 = ![10, 0, 0] := by
      funext j
      fin_cases j <;>
        simp only [face, mid4, bigCube, brick, Matrix.cons_val_zero, Matrix.cons_val_one, Matrix.cons_val,
          Pi.add_apply, Fin.zero_eta, Fin.mk_one, Fin.reduceFinMk] <;> norm_num
    have := hull_node ![bigCube 1, bigCube 2, face bigCube 1] 2
    rw [← e]
    exact this
  obtain ⟨s, h⟩ := C120_hex_defined bigCube ![10, 0, 0] (radius := 1) (by norm_num)
  cases s with
  | intersects => exact h
  | inside =>
    have := (C120_hex_inside (by norm_num)).mp h _ (solid_node bigCube 0)
    rw [distance_lt (by norm_num)] at this
    unfold dot at this
    simp only [bigCube, brick, Pi.sub_apply, Matrix.cons_val_zero, Matrix.cons_val_one, Matrix.cons_val,
      sub_zero] at this
    norm_num at this
  | outside =>
    have := C120_hex_surface (by norm_num) h _ hmid
    rw [le_distance (by norm_num)] at this
    unfold dot at this
    simp only [Pi.sub_apply, sub_self] at this
    norm_num at this

/-- A cube in a large sphere. -/
example : hexahedronSphere bigCube ![0, 0, 0] 100 = .ok .inside := by
  refine (C120_hex_inside (by norm_num)).mpr fun p hp => hull_within (by norm_num) (fun i => ?_) (solid_hull hp)
  rw [distance_lt (by norm_num)]
  unfold dot
  fin_cases i <;> simp [bigCube, brick] <;> norm_num

/-- **C120** disagreement: a cube that contains the whole sphere is reported to be outside. -/
theorem C120_hex_broken : ∃ (n : Fin 8 → V3) (center : V3) (radius : ℝ), 0 < radius ∧ Regular n ∧
    hexahedronSphere n center radius = .ok .outside ∧ Solid n center := by
  refine ⟨bigCube, ![0, 0, 0], 1, one_pos, bigCube_regular,
    C120_hex_far (by norm_num) bigCube_regular fun p => bigCube_far, ?_⟩
  refine ⟨_, _, _, facet_iff.mpr ⟨(1, 0, 0), by decide, rfl, rfl, rfl⟩, ?_⟩
  have e : hexCenter bigCube = ![0, 0, 0] := by
    rw [← hexMid_eq]
    funext j
    fin_cases j <;>
      simp only [hexMid, face, mid4, bigCube, brick, Matrix.cons_val_zero, Matrix.cons_val_one, Matrix.cons_val,
        Pi.add_apply, Fin.zero_eta, Fin.mk_one, Fin.reduceFinMk] <;> norm_num
  have := hull_node ![bigCube 0, bigCube 1, face bigCube 0, hexCenter bigCube] 3
  rw [← e]
  exact this

end Verif.Geometry
