import Verif.Geometry.HexProps
import Mathlib.Analysis.SpecialFunctions.Integrals.Basic

/-! Helper lemmas for C118: volumes and centroids. -/

noncomputable section

namespace Verif.Geometry

open Verif Verif.Mech

/-! ### The loop over the tetrahedra -/

/-- The volume the loop adds for a triangle. -/
def tetVol (n : Fin 8 → V3) (t : Fin 8 × Fin 8 × Fin 6) : ℝ :=
  triple (n t.2.1 - hexCenter n) (n t.1 - hexCenter n) (face n t.2.2 - hexCenter n) / 6

/-- The centroid the loop uses for a triangle. -/
def tetMid (n : Fin 8 → V3) (t : Fin 8 × Fin 8 × Fin 6) : V3 :=
  tetCentroid (n t.1) (n t.2.1) (face n t.2.2) (hexMid n)

theorem tetVolume_eq (n : Fin 8 → V3) (t : Fin 8 × Fin 8 × Fin 6) :
    tetVolume (n t.1) (n t.2.1) (face n t.2.2) (hexMid n) =
      if tetVol n t < 0 then .fail .terminate else .ok (tetVol n t) := by
  have e : triple (n t.2.1 - n t.1) (face n t.2.2 - n t.1) (hexMid n - n t.1) / 6 = tetVol n t := by
    unfold tetVol
    rw [hexMid_eq]
    unfold triple
    simp only [Pi.sub_apply]
    ring
  unfold tetVolume
  rw [e]

theorem foldlM_addTet {n : Fin 8 → V3} :
    ∀ (l : List (Fin 8 × Fin 8 × Fin 6)) (acc : ℝ × V3), (∀ t ∈ l, 0 ≤ tetVol n t) →
      l.foldlM (addTet n) acc = .ok (acc.1 + (l.map (tetVol n)).sum,
        fun i => acc.2 i + (l.map fun t => tetMid n t i * tetVol n t).sum)
  | [], acc, _ => by
      simp only [List.map_nil, List.sum_nil, add_zero]; rfl
  | t :: l, acc, h => by
      have ht : ¬ tetVol n t < 0 := not_lt.mpr (h t List.mem_cons_self)
      have e : addTet n acc t = .ok (acc.1 + tetVol n t, fun i => acc.2 i + tetMid n t i * tetVol n t) := by
        unfold addTet
        rw [tetVolume_eq, if_neg ht]
        rfl
      rw [List.foldlM_cons, e]
      show l.foldlM (addTet n) _ = _
      rw [foldlM_addTet l _ fun s hs => h s (List.mem_cons_of_mem _ hs)]
      simp only [List.map_cons, List.sum_cons, add_assoc]

theorem foldlM_addTet_fail {n : Fin 8 → V3} :
    ∀ (l : List (Fin 8 × Fin 8 × Fin 6)) (acc : ℝ × V3), (∃ t ∈ l, tetVol n t < 0) →
      l.foldlM (addTet n) acc = .fail .terminate
  | [], acc, h => by simp at h
  | t :: l, acc, h => by
      rw [List.foldlM_cons]
      by_cases ht : tetVol n t < 0
      · have e : addTet n acc t = .fail .terminate := by
          unfold addTet
          rw [tetVolume_eq, if_pos ht]
          rfl
        rw [e]; rfl
      · have e : addTet n acc t = .ok (acc.1 + tetVol n t, fun i => acc.2 i + tetMid n t i * tetVol n t) := by
          unfold addTet
          rw [tetVolume_eq, if_neg ht]
          rfl
        rw [e]
        show l.foldlM (addTet n) _ = _
        apply foldlM_addTet_fail
        obtain ⟨s, hs, hlt⟩ := h
        rcases List.mem_cons.mp hs with rfl | hs
        · exact absurd hlt ht
        · exact ⟨s, hs, hlt⟩

theorem hexSums_ok {n : Fin 8 → V3} (h : ∀ t ∈ triangles, 0 ≤ tetVol n t) :
    hexSums n = .ok ((triangles.map (tetVol n)).sum,
      fun i => (triangles.map fun t => tetMid n t i * tetVol n t).sum) := by
  unfold hexSums
  rw [foldlM_addTet _ _ h]
  simp only [zero_add]

theorem hexSums_fail {n : Fin 8 → V3} (h : ∃ t ∈ triangles, tetVol n t < 0) :
    hexSums n = .fail .terminate := foldlM_addTet_fail _ _ h

theorem hexSums_ok_iff {n : Fin 8 → V3} {s : ℝ × V3} :
    hexSums n = .ok s ↔ (∀ t ∈ triangles, 0 ≤ tetVol n t) ∧ s = ((triangles.map (tetVol n)).sum,
      fun i => (triangles.map fun t => tetMid n t i * tetVol n t).sum) := by
  by_cases h : ∀ t ∈ triangles, 0 ≤ tetVol n t
  · rw [hexSums_ok h]
    constructor
    · intro h'; injection h' with h'; exact ⟨h, h'.symm⟩
    · rintro ⟨-, rfl⟩; rfl
  · push Not at h
    rw [hexSums_fail h]
    constructor
    · intro h'; simp at h'
    · rintro ⟨h', -⟩
      obtain ⟨t, ht, hlt⟩ := h
      exact absurd hlt (not_lt.mpr (h' t ht))

/-! ### The sum of the volumes -/

/-- A closed surface: the base point does not matter. -/
theorem triple_base (a b m c : V3) :
    triple (a - c) (b - c) (m - c) = triple a b m - triple a b c - triple b m c - triple m a c := by
  unfold triple; simp only [Pi.sub_apply]; ring

theorem triple_swap (a b c : V3) : triple b a c = - triple a b c := by
  unfold triple; ring

theorem triple_cycle (a b c : V3) : triple b c a = triple a b c := by
  unfold triple; ring

/-- Four times the flux through a face, twice. -/
def flux (p q r s : V3) : ℝ := triple p q r + triple p q s + triple q r s + triple r s p

theorem triple_mid (a b p q r s : V3) :
    triple a b (mid4 p q r s) = 1 / 4 * (triple a b p + triple a b q + triple a b r + triple a b s) := by
  unfold triple mid4; ring

theorem triple_self_left (a b : V3) : triple a b a = 0 := by unfold triple; ring

theorem triple_self_right (a b : V3) : triple a b b = 0 := by unfold triple; ring

/-- The four triangles of a face. -/
theorem face_sum (p q r s c m : V3) (hm : m = mid4 p q r s) :
    triple (p - c) (q - c) (m - c) + triple (q - c) (r - c) (m - c) + triple (r - c) (s - c) (m - c) +
      triple (s - c) (p - c) (m - c) =
      1 / 2 * flux p q r s - (triple p q c + triple q r c + triple r s c + triple s p c) := by
  subst hm
  rw [triple_base, triple_base, triple_base, triple_base]
  simp only [triple_mid]
  unfold flux triple
  ring

/-- The flux through the six faces, twelve times the volume. -/
def fluxes (n : Fin 8 → V3) : ℝ :=
  flux (n 0) (n 1) (n 5) (n 4) + flux (n 1) (n 2) (n 6) (n 5) + flux (n 2) (n 3) (n 7) (n 6) +
  flux (n 3) (n 0) (n 4) (n 7) + flux (n 0) (n 3) (n 2) (n 1) + flux (n 4) (n 5) (n 6) (n 7)

theorem volume_flux (n : Fin 8 → V3) : (triangles.map (tetVol n)).sum = 1 / 12 * fluxes n := by
  have f0 := face_sum (n 0) (n 1) (n 5) (n 4) (hexCenter n) (face n 0)
    (by funext j; simp only [face, mid4]; ring)
  have f1 := face_sum (n 1) (n 2) (n 6) (n 5) (hexCenter n) (face n 1)
    (by funext j; simp only [face, mid4]; ring)
  have f2 := face_sum (n 2) (n 3) (n 7) (n 6) (hexCenter n) (face n 2)
    (by funext j; simp only [face, mid4]; ring)
  have f3 := face_sum (n 3) (n 0) (n 4) (n 7) (hexCenter n) (face n 3)
    (by funext j; simp only [face, mid4]; ring)
  have f4 := face_sum (n 0) (n 3) (n 2) (n 1) (hexCenter n) (face n 4)
    (by funext j; simp only [face, mid4]; ring)
  have f5 := face_sum (n 4) (n 5) (n 6) (n 7) (hexCenter n) (face n 5)
    (by funext j; simp only [face, mid4])
  simp only [triangles, List.map_cons, List.map_nil, List.sum_cons, List.sum_nil, tetVol]
  unfold fluxes
  generalize hexCenter n = c at *
  have a01 := triple_swap (n 0) (n 1) c
  have a15 := triple_swap (n 1) (n 5) c
  have a54 := triple_swap (n 5) (n 4) c
  have a40 := triple_swap (n 4) (n 0) c
  have a12 := triple_swap (n 1) (n 2) c
  have a26 := triple_swap (n 2) (n 6) c
  have a65 := triple_swap (n 6) (n 5) c
  have a23 := triple_swap (n 2) (n 3) c
  have a37 := triple_swap (n 3) (n 7) c
  have a76 := triple_swap (n 7) (n 6) c
  have a30 := triple_swap (n 3) (n 0) c
  have a47 := triple_swap (n 4) (n 7) c
  linarith

/-! ### Trilinear maps -/

/-- The hexahedron of a polynomial. -/
def ofCoef (c0 c1 c2 c3 c4 c5 c6 c7 : V3) : Fin 8 → V3 :=
  ![c0, c0 + c1, c0 + c1 + c2 + c4, c0 + c2, c0 + c3, c0 + c1 + c3 + c6,
    c0 + c1 + c2 + c3 + c4 + c5 + c6 + c7, c0 + c2 + c3 + c5]

theorem eq_ofCoef (n : Fin 8 → V3) :
    n = ofCoef (n 0) (n 1 - n 0) (n 3 - n 0) (n 4 - n 0) (n 2 - n 1 - n 3 + n 0) (n 7 - n 3 - n 4 + n 0)
      (n 5 - n 1 - n 4 + n 0) (n 6 - n 2 - n 7 - n 5 + n 1 + n 3 + n 4 - n 0) := by
  funext i j
  unfold ofCoef
  fin_cases i <;>
    simp only [Matrix.cons_val_zero, Matrix.cons_val_one, Matrix.cons_val, Pi.add_apply, Pi.sub_apply,
      Fin.zero_eta, Fin.mk_one, Fin.reduceFinMk] <;> ring

theorem trilinear_ofCoef (c0 c1 c2 c3 c4 c5 c6 c7 : V3) (s t r : ℝ) :
    trilinear (ofCoef c0 c1 c2 c3 c4 c5 c6 c7) s t r =
      c0 + s • c1 + t • c2 + r • c3 + (s * t) • c4 + (t * r) • c5 + (s * r) • c6 + (s * t * r) • c7 := by
  funext j
  unfold trilinear ofCoef
  simp only [Matrix.cons_val_zero, Matrix.cons_val_one, Matrix.cons_val, Pi.add_apply, Pi.smul_apply, smul_eq_mul]
  ring

theorem deriv_affine (f : ℝ → V3) (P Q : V3) (hf : ∀ x, f x = P + x • Q) (x : ℝ) : deriv f x = Q := by
  have : f = fun x => P + x • Q := funext hf
  rw [this]
  have h := ((hasDerivAt_id x).smul_const Q).const_add P
  simp only [id_eq, one_smul] at h
  exact h.deriv

/-- The Jacobian determinant with explicit derivatives. -/
def jac (c1 c2 c3 c4 c5 c6 c7 : V3) (s t r : ℝ) : ℝ :=
  triple (c1 + t • c4 + r • c6 + (t * r) • c7) (c2 + s • c4 + r • c5 + (s * r) • c7)
    (c3 + t • c5 + s • c6 + (s * t) • c7)

theorem jacobian_ofCoef (c0 c1 c2 c3 c4 c5 c6 c7 : V3) (s t r : ℝ) :
    jacobian (ofCoef c0 c1 c2 c3 c4 c5 c6 c7) s t r = jac c1 c2 c3 c4 c5 c6 c7 s t r := by
  unfold jacobian
  rw [det3_eq]
  have h1 : deriv (fun s => trilinear (ofCoef c0 c1 c2 c3 c4 c5 c6 c7) s t r) s =
      c1 + t • c4 + r • c6 + (t * r) • c7 := by
    apply deriv_affine _ (c0 + t • c2 + r • c3 + (t * r) • c5)
    intro x
    rw [trilinear_ofCoef]
    funext j
    simp only [Pi.add_apply, Pi.smul_apply, smul_eq_mul]
    ring
  have h2 : deriv (fun t => trilinear (ofCoef c0 c1 c2 c3 c4 c5 c6 c7) s t r) t =
      c2 + s • c4 + r • c5 + (s * r) • c7 := by
    apply deriv_affine _ (c0 + s • c1 + r • c3 + (s * r) • c6)
    intro x
    rw [trilinear_ofCoef]
    funext j
    simp only [Pi.add_apply, Pi.smul_apply, smul_eq_mul]
    ring
  have h3 : deriv (fun r => trilinear (ofCoef c0 c1 c2 c3 c4 c5 c6 c7) s t r) r =
      c3 + t • c5 + s • c6 + (s * t) • c7 := by
    apply deriv_affine _ (c0 + s • c1 + t • c2 + (s * t) • c4)
    intro x
    rw [trilinear_ofCoef]
    funext j
    simp only [Pi.add_apply, Pi.smul_apply, smul_eq_mul]
    ring
  rw [h1, h2, h3]
  rfl

/-! ### Quadratic functions -/

/-- `f` is a polynomial of degree two. -/
def Quad (f : ℝ → ℝ) : Prop := ∃ A B C : ℝ, ∀ x, f x = A + B * x + C * x ^ 2

theorem Quad.integral {f : ℝ → ℝ} (h : Quad f) :
    ∫ x in (0 : ℝ)..1, f x = 1 / 6 * f 0 + 2 / 3 * f (1 / 2) + 1 / 6 * f 1 := by
  obtain ⟨A, B, C, h⟩ := h
  have : f = fun x => A + B * x + C * x ^ 2 := funext h
  rw [this]
  rw [intervalIntegral.integral_add, intervalIntegral.integral_add]
  · rw [intervalIntegral.integral_const_mul, intervalIntegral.integral_const_mul, integral_id, integral_pow,
      intervalIntegral.integral_const]
    simp only [smul_eq_mul]
    norm_num
    ring
  · exact intervalIntegrable_const
  · exact (continuous_const.mul continuous_id).intervalIntegrable _ _
  · exact (continuous_const.add (continuous_const.mul continuous_id)).intervalIntegrable _ _
  · exact (continuous_const.mul (continuous_id.pow 2)).intervalIntegrable _ _

theorem Quad.lin {f g h : ℝ → ℝ} (a b c : ℝ) (hf : Quad f) (hg : Quad g) (hh : Quad h) :
    Quad fun x => a * f x + b * g x + c * h x := by
  obtain ⟨A, B, C, e⟩ := hf
  obtain ⟨A', B', C', e'⟩ := hg
  obtain ⟨A'', B'', C'', e''⟩ := hh
  refine ⟨a * A + b * A' + c * A'', a * B + b * B' + c * B'', a * C + b * C' + c * C'', fun x => ?_⟩
  show a * f x + b * g x + c * h x = _
  rw [e, e', e'']; ring

theorem jac_quad_r (c1 c2 c3 c4 c5 c6 c7 : V3) (s t : ℝ) :
    Quad fun r => jac c1 c2 c3 c4 c5 c6 c7 s t r := by
  refine ⟨triple (c1 + t • c4) (c2 + s • c4) (c3 + t • c5 + s • c6 + (s * t) • c7),
    triple (c6 + t • c7) (c2 + s • c4) (c3 + t • c5 + s • c6 + (s * t) • c7) +
      triple (c1 + t • c4) (c5 + s • c7) (c3 + t • c5 + s • c6 + (s * t) • c7),
    triple (c6 + t • c7) (c5 + s • c7) (c3 + t • c5 + s • c6 + (s * t) • c7), fun r => ?_⟩
  unfold jac
  generalize c3 + t • c5 + s • c6 + (s * t) • c7 = e
  unfold triple
  simp only [Pi.add_apply, Pi.smul_apply, smul_eq_mul]
  ring

theorem jac_quad_t (c1 c2 c3 c4 c5 c6 c7 : V3) (s r : ℝ) :
    Quad fun t => jac c1 c2 c3 c4 c5 c6 c7 s t r := by
  refine ⟨triple (c1 + r • c6) (c2 + s • c4 + r • c5 + (s * r) • c7) (c3 + s • c6),
    triple (c4 + r • c7) (c2 + s • c4 + r • c5 + (s * r) • c7) (c3 + s • c6) +
      triple (c1 + r • c6) (c2 + s • c4 + r • c5 + (s * r) • c7) (c5 + s • c7),
    triple (c4 + r • c7) (c2 + s • c4 + r • c5 + (s * r) • c7) (c5 + s • c7), fun t => ?_⟩
  unfold jac
  generalize c2 + s • c4 + r • c5 + (s * r) • c7 = e
  unfold triple
  simp only [Pi.add_apply, Pi.smul_apply, smul_eq_mul]
  ring

theorem jac_quad_s (c1 c2 c3 c4 c5 c6 c7 : V3) (t r : ℝ) :
    Quad fun s => jac c1 c2 c3 c4 c5 c6 c7 s t r := by
  refine ⟨triple (c1 + t • c4 + r • c6 + (t * r) • c7) (c2 + r • c5) (c3 + t • c5),
    triple (c1 + t • c4 + r • c6 + (t * r) • c7) (c4 + r • c7) (c3 + t • c5) +
      triple (c1 + t • c4 + r • c6 + (t * r) • c7) (c2 + r • c5) (c6 + t • c7),
    triple (c1 + t • c4 + r • c6 + (t * r) • c7) (c4 + r • c7) (c6 + t • c7), fun s => ?_⟩
  unfold jac
  generalize c1 + t • c4 + r • c6 + (t * r) • c7 = e
  unfold triple
  simp only [Pi.add_apply, Pi.smul_apply, smul_eq_mul]
  ring

theorem integral_jac (c0 c1 c2 c3 c4 c5 c6 c7 : V3) :
    hexahedronVolume (ofCoef c0 c1 c2 c3 c4 c5 c6 c7) =
      1 / 6 * (1 / 6 * (1 / 6 * jac c1 c2 c3 c4 c5 c6 c7 0 0 0 + 2 / 3 * jac c1 c2 c3 c4 c5 c6 c7 0 0 (1 / 2) +
          1 / 6 * jac c1 c2 c3 c4 c5 c6 c7 0 0 1) +
        2 / 3 * (1 / 6 * jac c1 c2 c3 c4 c5 c6 c7 0 (1 / 2) 0 +
          2 / 3 * jac c1 c2 c3 c4 c5 c6 c7 0 (1 / 2) (1 / 2) + 1 / 6 * jac c1 c2 c3 c4 c5 c6 c7 0 (1 / 2) 1) +
        1 / 6 * (1 / 6 * jac c1 c2 c3 c4 c5 c6 c7 0 1 0 + 2 / 3 * jac c1 c2 c3 c4 c5 c6 c7 0 1 (1 / 2) +
          1 / 6 * jac c1 c2 c3 c4 c5 c6 c7 0 1 1)) +
      2 / 3 * (1 / 6 * (1 / 6 * jac c1 c2 c3 c4 c5 c6 c7 (1 / 2) 0 0 +
          2 / 3 * jac c1 c2 c3 c4 c5 c6 c7 (1 / 2) 0 (1 / 2) + 1 / 6 * jac c1 c2 c3 c4 c5 c6 c7 (1 / 2) 0 1) +
        2 / 3 * (1 / 6 * jac c1 c2 c3 c4 c5 c6 c7 (1 / 2) (1 / 2) 0 +
          2 / 3 * jac c1 c2 c3 c4 c5 c6 c7 (1 / 2) (1 / 2) (1 / 2) +
          1 / 6 * jac c1 c2 c3 c4 c5 c6 c7 (1 / 2) (1 / 2) 1) +
        1 / 6 * (1 / 6 * jac c1 c2 c3 c4 c5 c6 c7 (1 / 2) 1 0 +
          2 / 3 * jac c1 c2 c3 c4 c5 c6 c7 (1 / 2) 1 (1 / 2) + 1 / 6 * jac c1 c2 c3 c4 c5 c6 c7 (1 / 2) 1 1)) +
      1 / 6 * (1 / 6 * (1 / 6 * jac c1 c2 c3 c4 c5 c6 c7 1 0 0 + 2 / 3 * jac c1 c2 c3 c4 c5 c6 c7 1 0 (1 / 2) +
          1 / 6 * jac c1 c2 c3 c4 c5 c6 c7 1 0 1) +
        2 / 3 * (1 / 6 * jac c1 c2 c3 c4 c5 c6 c7 1 (1 / 2) 0 +
          2 / 3 * jac c1 c2 c3 c4 c5 c6 c7 1 (1 / 2) (1 / 2) + 1 / 6 * jac c1 c2 c3 c4 c5 c6 c7 1 (1 / 2) 1) +
        1 / 6 * (1 / 6 * jac c1 c2 c3 c4 c5 c6 c7 1 1 0 + 2 / 3 * jac c1 c2 c3 c4 c5 c6 c7 1 1 (1 / 2) +
          1 / 6 * jac c1 c2 c3 c4 c5 c6 c7 1 1 1)) := by
  unfold hexahedronVolume
  simp only [jacobian_ofCoef]
  simp only [fun s t => (jac_quad_r c1 c2 c3 c4 c5 c6 c7 s t).integral]
  simp only [fun s => (Quad.lin (1 / 6) (2 / 3) (1 / 6) (jac_quad_t c1 c2 c3 c4 c5 c6 c7 s 0)
    (jac_quad_t c1 c2 c3 c4 c5 c6 c7 s (1 / 2)) (jac_quad_t c1 c2 c3 c4 c5 c6 c7 s 1)).integral]
  exact (Quad.lin (1 / 6) (2 / 3) (1 / 6)
    (Quad.lin (1 / 6) (2 / 3) (1 / 6) (jac_quad_s c1 c2 c3 c4 c5 c6 c7 0 0)
      (jac_quad_s c1 c2 c3 c4 c5 c6 c7 0 (1 / 2)) (jac_quad_s c1 c2 c3 c4 c5 c6 c7 0 1))
    (Quad.lin (1 / 6) (2 / 3) (1 / 6) (jac_quad_s c1 c2 c3 c4 c5 c6 c7 (1 / 2) 0)
      (jac_quad_s c1 c2 c3 c4 c5 c6 c7 (1 / 2) (1 / 2)) (jac_quad_s c1 c2 c3 c4 c5 c6 c7 (1 / 2) 1))
    (Quad.lin (1 / 6) (2 / 3) (1 / 6) (jac_quad_s c1 c2 c3 c4 c5 c6 c7 1 0)
      (jac_quad_s c1 c2 c3 c4 c5 c6 c7 1 (1 / 2)) (jac_quad_s c1 c2 c3 c4 c5 c6 c7 1 1))).integral

end Verif.Geometry
