import Verif.Geometry.VolumeIdentity

/-! C118: volumes and centroids of elements. -/

noncomputable section

namespace Verif.Geometry

open Verif Verif.Mech

/-! ### Helper lemmas -/

theorem tetVol_facet {n : Fin 8 → V3} {a b m : V3} (h : Facet n a b m) : ∃ t ∈ triangles,
    tetVol n t = det3 (a - hexCenter n) (b - hexCenter n) (m - hexCenter n) / 6 := by
  obtain ⟨t, ht, rfl, rfl, rfl⟩ := facet_iff.mp h
  exact ⟨t, ht, by rw [det3_eq]; rfl⟩

theorem facet_tetVol {n : Fin 8 → V3} {t : Fin 8 × Fin 8 × Fin 6} (ht : t ∈ triangles) :
    ∃ a b m, Facet n a b m ∧
      tetVol n t = det3 (a - hexCenter n) (b - hexCenter n) (m - hexCenter n) / 6 :=
  ⟨_, _, _, facet_iff.mpr ⟨t, ht, rfl, rfl, rfl⟩, by rw [det3_eq]; rfl⟩

theorem regular_tetVol {n : Fin 8 → V3} (hn : Regular n) {t : Fin 8 × Fin 8 × Fin 6}
    (ht : t ∈ triangles) : 0 < tetVol n t := by
  unfold tetVol
  have := regular_triple hn ht
  linarith

theorem hexVolume_ok_iff {n : Fin 8 → V3} {v : ℝ} :
    hexVolume n = .ok v ↔ (∀ t ∈ triangles, 0 ≤ tetVol n t) ∧ v = (triangles.map (tetVol n)).sum := by
  by_cases h : ∀ t ∈ triangles, 0 ≤ tetVol n t
  · have e : hexVolume n = .ok (triangles.map (tetVol n)).sum := by
      unfold hexVolume; rw [hexSums_ok h]; rfl
    rw [e]
    constructor
    · intro h'; injection h' with h'; exact ⟨h, h'.symm⟩
    · rintro ⟨-, rfl⟩; rfl
  · have e : hexVolume n = .fail .terminate := by
      unfold hexVolume
      push Not at h
      rw [hexSums_fail h]; rfl
    rw [e]
    constructor
    · intro h'; simp at h'
    · rintro ⟨h', -⟩; exact absurd h' h

theorem hexCentroid_ok_iff {n : Fin 8 → V3} {c : V3} {v : ℝ} :
    hexCentroidAndVolume n = .ok (c, v) ↔ hexVolume n = .ok v ∧ v ≠ 0 ∧
      c = fun i => (triangles.map fun t => tetMid n t i * tetVol n t).sum / v := by
  rw [hexVolume_ok_iff]
  by_cases h : ∀ t ∈ triangles, 0 ≤ tetVol n t
  · have e : hexCentroidAndVolume n = if (triangles.map (tetVol n)).sum = 0 then .ub else
        .ok (fun i => (triangles.map fun t => tetMid n t i * tetVol n t).sum / (triangles.map (tetVol n)).sum,
          (triangles.map (tetVol n)).sum) := by
      unfold hexCentroidAndVolume; rw [hexSums_ok h]; rfl
    rw [e]
    constructor
    · intro h'
      split at h'
      · simp at h'
      · next h0 =>
        injection h' with h'
        obtain ⟨rfl, rfl⟩ := Prod.mk.inj h'
        exact ⟨⟨h, rfl⟩, h0, rfl⟩
    · rintro ⟨⟨-, rfl⟩, h0, rfl⟩
      rw [if_neg h0]
  · have e : hexCentroidAndVolume n = .fail .terminate := by
      unfold hexCentroidAndVolume
      push Not at h
      rw [hexSums_fail h]; rfl
    rw [e]
    constructor
    · intro h'; simp at h'
    · rintro ⟨⟨h', -⟩, -⟩; exact absurd h' h

/-! ### Tetrahedra -/

/-- **C118** Tetrahedra: the volume is a sixth of the determinant of the edges, the centroid the mean of
the nodes; an inverted tetrahedron ends the program. -/
theorem C118_tet (n : Fin 4 → V3) :
    (∀ c v, tetCentroidAndVolume n = .ok (c, v) ↔
      0 ≤ det3 (n 1 - n 0) (n 2 - n 0) (n 3 - n 0) ∧
      v = det3 (n 1 - n 0) (n 2 - n 0) (n 3 - n 0) / 6 ∧ c = (1 / 4 : ℝ) • ∑ i, n i) ∧
    (tetCentroidAndVolume n = .fail .terminate ↔ det3 (n 1 - n 0) (n 2 - n 0) (n 3 - n 0) < 0) := by
  have hc : tetCentroid (n 0) (n 1) (n 2) (n 3) = (1 / 4 : ℝ) • ∑ i, n i := by
    funext j
    rw [Fin.sum_univ_four]
    simp only [tetCentroid, Pi.smul_apply, Pi.add_apply, smul_eq_mul]
    ring
  rw [det3_eq]
  by_cases h : triple (n 1 - n 0) (n 2 - n 0) (n 3 - n 0) < 0
  · have e : tetCentroidAndVolume n = .fail .terminate := by
      unfold tetCentroidAndVolume tetVolume
      rw [if_pos (by linarith)]; rfl
    rw [e]
    refine ⟨fun c v => ⟨fun h' => by simp at h', fun h' => absurd h (not_lt.mpr h'.1)⟩, ?_⟩
    simp [h]
  · have e : tetCentroidAndVolume n = .ok ((1 / 4 : ℝ) • ∑ i, n i,
        triple (n 1 - n 0) (n 2 - n 0) (n 3 - n 0) / 6) := by
      unfold tetCentroidAndVolume tetVolume
      rw [if_neg (by linarith), ← hc]; rfl
    rw [e]
    refine ⟨fun c v => ⟨fun h' => ?_, ?_⟩, ?_⟩
    · injection h' with h'
      obtain ⟨rfl, rfl⟩ := Prod.mk.inj h'
      exact ⟨not_lt.mp h, rfl, rfl⟩
    · rintro ⟨-, rfl, rfl⟩; rfl
    · simp [h]

/-- A tetrahedron of volume 64000/6. -/
example : tetCentroidAndVolume bigTet = .ok ((1 / 4 : ℝ) • ∑ i, bigTet i, 64000 / 6) :=
  ((C118_tet bigTet).1 _ _).mpr ⟨by rw [bigTet_volume]; norm_num, by rw [bigTet_volume], rfl⟩

/-! ### Hexahedra -/

/-- **C118** The volume of a hexahedron is the integral of the Jacobian determinant of its trilinear map,
also if its faces are not plane. -/
theorem C118_hex_volume {n : Fin 8 → V3} {v : ℝ} (h : hexVolume n = .ok v) : v = hexahedronVolume n := by
  rw [(hexVolume_ok_iff.mp h).2, volume_integral]

/-- **C118** A hexahedron is refused exactly if one of the triangles of its surface is turned inwards seen
from the center. -/
theorem C118_hex_refused (n : Fin 8 → V3) : hexVolume n = .fail .terminate ↔
    ∃ a b m, Facet n a b m ∧ det3 (a - hexCenter n) (b - hexCenter n) (m - hexCenter n) < 0 := by
  constructor
  · intro h
    by_contra hall
    push Not at hall
    have : hexVolume n = .ok (triangles.map (tetVol n)).sum := hexVolume_ok_iff.mpr ⟨fun t ht => by
      obtain ⟨a, b, m, hf, e⟩ := facet_tetVol (n := n) ht
      rw [e]
      have := hall a b m hf
      linarith, rfl⟩
    rw [this] at h
    simp at h
  · rintro ⟨a, b, m, hf, hlt⟩
    obtain ⟨t, ht, e⟩ := tetVol_facet hf
    unfold hexVolume
    rw [hexSums_fail ⟨t, ht, by rw [e]; linarith⟩]
    rfl

/-- **C118** The two functions agree on the volume, and the volume with a centroid is positive. -/
theorem C118_hex_same {n : Fin 8 → V3} {c : V3} {v : ℝ} (h : hexCentroidAndVolume n = .ok (c, v)) :
    hexVolume n = .ok v ∧ 0 < v := by
  obtain ⟨h1, h2, -⟩ := hexCentroid_ok_iff.mp h
  refine ⟨h1, lt_of_le_of_ne ?_ (Ne.symm h2)⟩
  obtain ⟨h3, rfl⟩ := hexVolume_ok_iff.mp h1
  exact List.sum_nonneg fun x hx => by
    obtain ⟨t, ht, rfl⟩ := List.mem_map.mp hx
    exact h3 t ht

/-- **C118** Every hexahedron that is not distorted has a positive volume and a centroid. -/
theorem C118_hex_defined {n : Fin 8 → V3} (hn : Regular n) :
    ∃ c v, hexCentroidAndVolume n = .ok (c, v) ∧ 0 < v := by
  have h0 : ∀ t ∈ triangles, 0 ≤ tetVol n t := fun t ht => (regular_tetVol hn ht).le
  have hpos : 0 < (triangles.map (tetVol n)).sum := by
    refine List.sum_pos _ (fun x hx => ?_) (by simp [triangles])
    obtain ⟨t, ht, rfl⟩ := List.mem_map.mp hx
    exact regular_tetVol hn ht
  exact ⟨_, _, hexCentroid_ok_iff.mpr ⟨hexVolume_ok_iff.mpr ⟨h0, rfl⟩, hpos.ne', rfl⟩, hpos⟩

/-- **C118** The centroid is the mean of the centroids of the tetrahedra between the center and the
triangles of the surface, weighted with their volumes. -/
theorem C118_hex_centroid {n : Fin 8 → V3} {c : V3} {v : ℝ} (h : hexCentroidAndVolume n = .ok (c, v)) :
    v • c = ((facets n).map fun f =>
      (det3 (f.1 - hexCenter n) (f.2.1 - hexCenter n) (f.2.2 - hexCenter n) / 6) •
        middle f.1 f.2.1 f.2.2 (hexCenter n)).sum := by
  obtain ⟨-, h2, rfl⟩ := hexCentroid_ok_iff.mp h
  have e : v • (fun i => (triangles.map fun t => tetMid n t i * tetVol n t).sum / v) =
      fun i => (triangles.map fun t => tetMid n t i * tetVol n t).sum := by
    funext i
    simp only [Pi.smul_apply, smul_eq_mul]
    field_simp
  rw [e]
  funext i
  simp only [triangles, facets, hexQuads, List.flatMap_cons, List.flatMap_nil, List.append_nil,
    List.cons_append, List.nil_append, List.map_cons, List.map_nil, List.sum_cons, List.sum_nil, Pi.add_apply,
    Pi.smul_apply, smul_eq_mul, Pi.zero_apply, tetVol, tetMid, det3_eq, hexMid_eq, face_eq, tetCentroid]
  have hm : ∀ a b c d : V3, middle a b c d i = 1 / 4 * (a i + b i + c i + d i) := by
    intro a b c d
    simp only [middle, Pi.smul_apply, Pi.add_apply, smul_eq_mul]
  simp only [hm]
  ring

/-- **C118** The centroid is in the convex hull of the nodes. -/
theorem C118_hex_hull {n : Fin 8 → V3} {c : V3} {v : ℝ} (h : hexCentroidAndVolume n = .ok (c, v)) :
    Hull n c := by
  obtain ⟨h1, h2, rfl⟩ := hexCentroid_ok_iff.mp h
  obtain ⟨h3, rfl⟩ := hexVolume_ok_iff.mp h1
  have hpos := (C118_hex_same h).2
  have key : ∀ l : List (Fin 8 × Fin 8 × Fin 6), (∀ t ∈ l, t ∈ triangles) → ∃ w : Fin 8 → ℝ,
      (∀ i, 0 ≤ w i) ∧ ∑ i, w i = (l.map (tetVol n)).sum ∧
      ∀ j, (l.map fun t => tetMid n t j * tetVol n t).sum = ∑ i, w i * n i j := by
    intro l
    induction l with
    | nil => intro _; exact ⟨fun _ => 0, fun _ => le_refl _, by simp, fun j => by simp⟩
    | cons t l ih =>
      intro hl
      obtain ⟨w, hw, hs, hp⟩ := ih fun s hs => hl s (List.mem_cons_of_mem _ hs)
      have ht := hl t List.mem_cons_self
      have hf : Facet n (n t.2.1) (n t.1) (face n t.2.2) := facet_iff.mpr ⟨t, ht, rfl, rfl, rfl⟩
      obtain ⟨ha, hb, hm⟩ := facet_hull hf
      have hmid : Hull n (tetMid n t) := by
        have : Hull ![n t.2.1, n t.1, face n t.2.2, hexCenter n] (tetMid n t) := by
          refine hull_four.mpr ⟨1 / 4, 1 / 4, 1 / 4, 1 / 4, by norm_num, by norm_num, by norm_num, by norm_num,
            by norm_num, ?_⟩
          funext j
          simp only [tetMid, tetCentroid, hexMid_eq, Pi.add_apply, Pi.smul_apply, smul_eq_mul]
          ring
        refine hull_trans this fun i => ?_
        fin_cases i
        · exact ha
        · exact hb
        · exact hm
        · exact center_hull n
      obtain ⟨u, hu, hus, hup⟩ := hmid
      refine ⟨fun i => w i + tetVol n t * u i, fun i => add_nonneg (hw i) (mul_nonneg (h3 t ht) (hu i)), ?_,
        fun j => ?_⟩
      · rw [Finset.sum_add_distrib, ← Finset.mul_sum, hus, hs]
        simp only [List.map_cons, List.sum_cons]
        ring
      · simp only [List.map_cons, List.sum_cons]
        rw [hp j]
        have : tetMid n t j = ∑ i, u i * n i j := by
          rw [hup, Finset.sum_apply]; rfl
        rw [this]
        simp only [add_mul, Finset.sum_add_distrib]
        rw [Finset.sum_mul, add_comm]
        congr 1
        refine Finset.sum_congr rfl fun i _ => ?_
        ring
  obtain ⟨w, hw, hs, hp⟩ := key triangles fun _ h => h
  refine ⟨fun i => w i / (triangles.map (tetVol n)).sum, fun i => div_nonneg (hw i) hpos.le, ?_, ?_⟩
  · rw [← Finset.sum_div, hs, div_self hpos.ne']
  · funext j
    rw [Finset.sum_apply]
    simp only [hp, Pi.smul_apply, smul_eq_mul]
    rw [Finset.sum_div]
    refine Finset.sum_congr rfl fun i _ => ?_
    ring

/-- **C118** The volume is the sum of contributions of the faces; a face shared by two elements, run
through in opposite directions, contributes to them with opposite signs. -/
theorem C118_additive :
    (∀ {n : Fin 8 → V3} {v : ℝ}, hexVolume n = .ok v →
      v = (hexQuads.map fun q => cone (n q.1) (n q.2.1) (n q.2.2.1) (n q.2.2.2)).sum) ∧
    (∀ a b c d : V3, cone d c b a = - cone a b c d) ∧ ∀ a b c d : V3, cone b c d a = cone a b c d := by
  refine ⟨fun {n v} h => ?_, fun a b c d => ?_, fun a b c d => ?_⟩
  · rw [(hexVolume_ok_iff.mp h).2, volume_flux]
    have e : ∀ p q r s, cone p q r s = 1 / 12 * flux p q r s := by
      intro p q r s
      have hm : middle p q r s = mid4 p q r s := by
        funext j; simp only [middle, mid4, Pi.smul_apply, Pi.add_apply, smul_eq_mul]
      unfold cone
      simp only [det3_eq, hm, triple_mid]
      unfold flux triple
      ring
    simp only [hexQuads, List.map_cons, List.map_nil, List.sum_cons, List.sum_nil, e]
    unfold fluxes
    ring
  · unfold cone middle
    simp only [det3_eq]
    unfold triple
    simp only [Pi.smul_apply, Pi.add_apply, smul_eq_mul]
    ring
  · unfold cone middle
    simp only [det3_eq]
    unfold triple
    simp only [Pi.smul_apply, Pi.add_apply, smul_eq_mul]
    ring

/-! ### Parallelepipeds -/

/-- **C118** Parallelepipeds: the volume is the determinant of the edges, the centroid the middle. -/
theorem C118_brick {o u v w : V3} (h : 0 < det3 u v w) :
    hexCentroidAndVolume (brick o u v w) = .ok (o + (1 / 2 : ℝ) • (u + v + w), det3 u v w) := by
  have hv : ∀ t ∈ triangles, tetVol (brick o u v w) t = det3 u v w / 24 := by
    intro t ht
    unfold tetVol
    rw [brick_triple o u v w t ht, det3_eq]
    ring
  have hsum : (triangles.map (tetVol (brick o u v w))).sum = det3 u v w := by
    rw [List.map_congr_left hv]
    simp only [triangles, List.map_cons, List.map_nil, List.sum_cons, List.sum_nil]
    ring
  rw [hexCentroid_ok_iff, hexVolume_ok_iff]
  refine ⟨⟨fun t ht => by rw [hv t ht]; linarith, hsum.symm⟩, h.ne', ?_⟩
  funext i
  have e : (triangles.map fun t => tetMid (brick o u v w) t i * tetVol (brick o u v w) t) =
      triangles.map fun t => tetMid (brick o u v w) t i * (det3 u v w / 24) :=
    List.map_congr_left fun t ht => by rw [hv t ht]
  rw [e, eq_div_iff h.ne']
  simp only [triangles, List.map_cons, List.map_nil, List.sum_cons, List.sum_nil, tetMid, tetCentroid, hexMid,
    face, mid4, brick, Matrix.cons_val_zero, Matrix.cons_val_one, Matrix.cons_val, Pi.add_apply, Pi.smul_apply,
    smul_eq_mul]
  ring

/-- A cube of volume 8000. -/
example : ∃ c, hexCentroidAndVolume bigCube = .ok (c, 8000) ∧ 8000 = hexahedronVolume bigCube := by
  have hd : det3 ![20, 0, 0] ![0, 20, 0] ![0, 0, 20] = 8000 := by
    rw [det3_eq]
    unfold triple
    simp only [Matrix.cons_val_zero, Matrix.cons_val_one, Matrix.cons_val]
    norm_num
  have h := C118_brick (o := ![-10, -10, -10]) (u := ![20, 0, 0]) (v := ![0, 20, 0]) (w := ![0, 0, 20])
    (by rw [hd]; norm_num)
  rw [hd] at h
  exact ⟨_, h, C118_hex_volume (C118_hex_same h).1⟩

/-! ### Affine maps -/

theorem triple_mulVec (A : Matrix (Fin 3) (Fin 3) ℝ) (u v w : V3) :
    triple (A.mulVec u) (A.mulVec v) (A.mulVec w) = A.det * triple u v w := by
  rw [Matrix.det_fin_three]
  unfold triple
  simp only [Matrix.mulVec, dotProduct, Fin.sum_univ_three]
  ring

theorem center_affine (A : Matrix (Fin 3) (Fin 3) ℝ) (b : V3) (n : Fin 8 → V3) :
    hexCenter (fun i => A.mulVec (n i) + b) = A.mulVec (hexCenter n) + b := by
  rw [← hexMid_eq, ← hexMid_eq]
  funext j
  simp only [hexMid, face, mid4, Pi.add_apply, Matrix.mulVec, dotProduct, Fin.sum_univ_three]
  ring

theorem face_affine (A : Matrix (Fin 3) (Fin 3) ℝ) (b : V3) (n : Fin 8 → V3) (f : Fin 6) :
    face (fun i => A.mulVec (n i) + b) f = A.mulVec (face n f) + b := by
  funext j
  fin_cases f <;> simp only [face, mid4, Pi.add_apply, Matrix.mulVec, dotProduct, Fin.sum_univ_three] <;> ring

theorem tetVol_affine (A : Matrix (Fin 3) (Fin 3) ℝ) (b : V3) (n : Fin 8 → V3) (t : Fin 8 × Fin 8 × Fin 6) :
    tetVol (fun i => A.mulVec (n i) + b) t = A.det * tetVol n t := by
  unfold tetVol
  rw [center_affine, face_affine]
  simp only [add_sub_add_right_eq_sub, ← Matrix.mulVec_sub]
  rw [triple_mulVec]
  ring

theorem tetMid_affine (A : Matrix (Fin 3) (Fin 3) ℝ) (b : V3) (n : Fin 8 → V3) (t : Fin 8 × Fin 8 × Fin 6) :
    tetMid (fun i => A.mulVec (n i) + b) t = A.mulVec (tetMid n t) + b := by
  unfold tetMid
  rw [hexMid_eq, center_affine, face_affine, ← hexMid_eq]
  funext j
  simp only [tetCentroid, Pi.add_apply, Matrix.mulVec, dotProduct, Fin.sum_univ_three]
  ring

/-- **C118** Turning, moving and stretching the element: the volume is multiplied with the determinant and
the centroid is mapped along. -/
theorem C118_affine {n : Fin 8 → V3} {c : V3} {v : ℝ} (h : hexCentroidAndVolume n = .ok (c, v))
    {A : Matrix (Fin 3) (Fin 3) ℝ} (hA : 0 < A.det) (b : V3) :
    hexCentroidAndVolume (fun i => A.mulVec (n i) + b) = .ok (A.mulVec c + b, A.det * v) := by
  obtain ⟨h1, h2, rfl⟩ := hexCentroid_ok_iff.mp h
  obtain ⟨h3, hv⟩ := hexVolume_ok_iff.mp h1
  rw [hexCentroid_ok_iff, hexVolume_ok_iff]
  have e : tetVol (fun i => A.mulVec (n i) + b) = fun t => A.det * tetVol n t := funext (tetVol_affine A b n)
  rw [e]
  refine ⟨⟨fun t ht => mul_nonneg hA.le (h3 t ht), ?_⟩, mul_ne_zero hA.ne' h2, ?_⟩
  · rw [List.sum_map_mul_left, ← hv]
  · funext j
    have hd : A.det * v ≠ 0 := mul_ne_zero hA.ne' h2
    rw [eq_div_iff hd]
    simp only [tetMid_affine, Pi.add_apply, Matrix.mulVec, dotProduct, Fin.sum_univ_three]
    have key : ∀ l : List (Fin 8 × Fin 8 × Fin 6),
        (l.map fun t => (A j 0 * tetMid n t 0 + A j 1 * tetMid n t 1 + A j 2 * tetMid n t 2 + b j) *
          (A.det * tetVol n t)).sum =
        A.det * (A j 0 * (l.map fun t => tetMid n t 0 * tetVol n t).sum +
          A j 1 * (l.map fun t => tetMid n t 1 * tetVol n t).sum +
          A j 2 * (l.map fun t => tetMid n t 2 * tetVol n t).sum + b j * (l.map (tetVol n)).sum) := by
      intro l
      induction l with
      | nil => simp
      | cons t l ih =>
        simp only [List.map_cons, List.sum_cons]
        rw [ih]
        ring
    rw [key, ← hv]
    field_simp

/-- **C118** A mirrored element is refused. -/
theorem C118_mirror {n : Fin 8 → V3} (hn : Regular n) {A : Matrix (Fin 3) (Fin 3) ℝ} (hA : A.det < 0)
    (b : V3) : hexCentroidAndVolume (fun i => A.mulVec (n i) + b) = .fail .terminate := by
  have hmem : ((1, 0, 0) : Fin 8 × Fin 8 × Fin 6) ∈ triangles := by decide
  unfold hexCentroidAndVolume
  rw [hexSums_fail ⟨_, hmem, by
    rw [tetVol_affine]
    exact mul_neg_of_neg_of_pos hA (regular_tetVol hn hmem)⟩]
  rfl

/-- **C118** disagreement: an element without volume is not refused; the sums are divided by zero. -/
theorem C118_flat (p : V3) : hexCentroidAndVolume (fun _ => p) = .ub := by
  have h0 : ∀ t ∈ triangles, tetVol (fun _ => p) t = 0 := by
    intro t _
    have hc : hexCenter (fun _ : Fin 8 => p) = p := by
      rw [← hexMid_eq]
      funext j
      simp only [hexMid, face, mid4]
      ring
    unfold tetVol
    rw [hc]
    unfold triple
    simp
  have hs : (triangles.map (tetVol fun _ => p)).sum = 0 := by
    rw [List.map_congr_left h0]
    simp
  unfold hexCentroidAndVolume
  rw [hexSums_ok fun t ht => (h0 t ht).ge]
  show (if _ = 0 then _ else _) = _
  rw [if_pos hs]

/-- Turning and stretching the cube. -/
example : ∃ c, hexCentroidAndVolume (fun i =>
    (Matrix.of ![![0, -2, 0], ![1, 0, 0], ![0, 0, 1]]).mulVec (bigCube i) + ![1, 2, 3]) = .ok (c, 2 * 8000) := by
  have hd : det3 ![20, 0, 0] ![0, 20, 0] ![0, 0, 20] = 8000 := by
    rw [det3_eq]
    unfold triple
    simp only [Matrix.cons_val_zero, Matrix.cons_val_one, Matrix.cons_val]
    norm_num
  have h := C118_brick (o := ![-10, -10, -10]) (u := ![20, 0, 0]) (v := ![0, 20, 0]) (w := ![0, 0, 20])
    (by rw [hd]; norm_num)
  rw [hd] at h
  have hdet : (Matrix.of ![![0, -2, 0], ![1, 0, 0], ![0, 0, 1]] : Matrix (Fin 3) (Fin 3) ℝ).det = 2 := by
    rw [Matrix.det_fin_three]
    simp
  have := C118_affine h (A := Matrix.of ![![0, -2, 0], ![1, 0, 0], ![0, 0, 1]]) (by rw [hdet]; norm_num)
    ![1, 2, 3]
  rw [hdet] at this
  exact ⟨_, this⟩

end Verif.Geometry
