import Verif.Filter.Lemmas

/-!
# C16: bond filters cut bonds symmetrically and only where the segment meets the filter
-/

noncomputable section

namespace Verif.Filter

open Verif Verif.Mech

/-- C16, symmetry: whatever the filter and the two points, the bond from `p` to `q` gets the same verdict
as the bond from `q` to `p`. -/
theorem cuts_symmetric (S : Shape) (p q : V3) : S.cuts p q = S.cuts q p := by
  cases S with
  | default => rfl
  | plane P =>
    simp only [Shape.cuts]
    rw [plane_cuts_eq, plane_cuts_eq]
    exact symm_of (by norm_num) P.r0 P.n (fun X => P.bondIntersect X 1e-15) p q
  | disk D =>
    exact symm_of (by norm_num) D.center D.normal (fun x => if (x 0 - D.center 0) * (x 0 - D.center 0) +
      (x 1 - D.center 1) * (x 1 - D.center 1) + (x 2 - D.center 2) * (x 2 - D.center 2) <
      D.radius * D.radius then Outcome.ok true else Outcome.ok false) p q
  | triangle T =>
    simp only [Shape.cuts, Triangle.cuts]
    split
    · next n _ =>
      exact symm_of (by norm_num) T.v1 n (fun x => baryInside 1e-14 (T.v3 - T.v1) (T.v2 - T.v1) (x - T.v1)) p q
    · rfl
    · rfl
  | quad Q =>
    simp only [Shape.cuts, Quad.cuts]
    split
    · next n _ =>
      exact symm_of (by norm_num) Q.v1 n (fun x => orBoth (baryInside 1e-14 (Q.v3 - Q.v1) (Q.v2 - Q.v1) (x - Q.v1))
        (baryInside 1e-14 (Q.v3 - Q.v1) (Q.v4 - Q.v1) (x - Q.v1))) p q
    · rfl
    · rfl

/-- C16, definedness: a filter that is not degenerate gives a verdict on every bond. -/
theorem cuts_defined (S : Shape) (hS : NonDegenerate S) (p q : V3) : ∃ b, S.cuts p q = .ok b := by
  have hok : ∀ a b c : V3, cross a b ≠ 0 → ∃ u, baryInside 1e-14 a b c = .ok u := by
    intro a b c h
    simp only [baryInside, if_neg (gram_pos h)]
    exact ⟨_, rfl⟩
  cases S with
  | default => exact ⟨false, rfl⟩
  | plane P =>
    simp only [Shape.cuts, FinitePlane.cuts]
    split
    · simp only [FinitePlane.bondIntersect, if_neg hS.1, if_neg hS.2]
      repeat' split
      all_goals exact ⟨_, rfl⟩
    · exact ⟨_, rfl⟩
  | disk D =>
    simp only [Shape.cuts, Disk.cuts]
    repeat' split
    all_goals exact ⟨_, rfl⟩
  | triangle T =>
    simp only [NonDegenerate, cross_eq] at hS
    obtain ⟨m, hm⟩ := unitNormal_of hS
    simp only [Shape.cuts, Triangle.cuts, hm]
    split
    · exact ⟨_, rfl⟩
    · exact hok _ _ _ (cross_swap_ne hS)
  | quad Q =>
    simp only [NonDegenerate, cross_eq] at hS
    obtain ⟨m, hm⟩ := unitNormal_of hS.1
    simp only [Shape.cuts, Quad.cuts, hm]
    split
    · exact ⟨_, rfl⟩
    · obtain ⟨u, hu⟩ := hok _ _ (pointAt p q (param 1e-14 Q.v1 m p q) - Q.v1) hS.2.1
      obtain ⟨w, hw⟩ := hok _ _ (pointAt p q (param 1e-14 Q.v1 m p q) - Q.v1) hS.2.2
      rw [hu, hw]
      exact ⟨_, rfl⟩

/-- The unit square is not degenerate. -/
example : NonDegenerate (.quad ⟨![0, 0, 0], ![1, 0, 0], ![1, 1, 0], ![0, 1, 0]⟩) := by
  refine ⟨?_, ?_, ?_⟩
  · intro h
    have := congrFun h 2
    simp [cross_apply] at this
  · intro h
    have := congrFun h 2
    simp [cross_apply] at this
  · intro h
    have := congrFun h 2
    simp [cross_apply] at this

/-- C16, rectangle: with unit normal and unit bottom edge at right angles and positive edge lengths, a
bond is removed exactly if it is not parallel to the plane (up to the tolerance) and the segment meets
the rectangle (up to the tolerance). -/
theorem plane_removes_iff (P : FinitePlane) (hn : dotProduct P.n P.n = 1) (hu : dotProduct P.ub P.ub = 1)
    (hnu : dotProduct P.n P.ub = 0) (ha : 0 < P.a) (hb : 0 < P.b) (p q : V3) :
    (Shape.plane P).cuts p q = .ok true ↔
      Crosses 1e-14 P.n p q ∧
      Meets p q (rectangle 1e-15 P.r0 (crossProduct P.ub P.n) P.ub P.a P.b) := by
  simp only [Shape.cuts]
  rw [plane_cuts_eq]
  rw [true_iff (by norm_num) P.r0 P.n (fun X => P.bondIntersect X 1e-15) p q]
  have hset : {X | dotProduct (X - P.r0) P.n = 0 ∧ P.bondIntersect X 1e-15 = .ok true} =
      rectangle 1e-15 P.r0 (crossProduct P.ub P.n) P.ub P.a P.b := by
    ext X
    simp only [Set.mem_ofPred_eq, rectangle]
    rw [bondIntersect_iff P ha hb, cross_eq]
    have hua : P.ua = cross P.ub P.n := rfl
    rw [dot_eq, dot_eq, hua]
    constructor
    · rintro ⟨h0, h1, h2, h3, h4⟩
      refine ⟨_, _, ?_, h1, h2, h3, h4⟩
      generalize hc : X - P.r0 = c at *
      have hX : X = P.r0 + c := by rw [← hc]; abel
      rw [hX, add_assoc]
      congr 1
      simp only [dotProduct, Fin.sum_univ_three] at *
      apply v3_ext <;>
      · simp only [Pi.add_apply, Pi.smul_apply, smul_eq_mul, cross, Matrix.cons_val_zero, Matrix.cons_val_one,
          Matrix.cons_val_two, Matrix.head_cons, Matrix.tail_cons]
        first
          | linear_combination (-c 0) * ((P.n 0 * P.n 0 + P.n 1 * P.n 1 + P.n 2 * P.n 2) * hu + hn - (P.n 0 * P.ub 0 + P.n 1 * P.ub 1 + P.n 2 * P.ub 2) * hnu) + P.ub 0 * ((c 0 * P.ub 0 + c 1 * P.ub 1 + c 2 * P.ub 2) * hn - (c 0 * P.n 0 + c 1 * P.n 1 + c 2 * P.n 2) * hnu) +
              P.n 0 * ((P.ub 0 * P.ub 0 + P.ub 1 * P.ub 1 + P.ub 2 * P.ub 2) * h0 - (c 0 * P.ub 0 + c 1 * P.ub 1 + c 2 * P.ub 2) * hnu)
          | linear_combination (-c 1) * ((P.n 0 * P.n 0 + P.n 1 * P.n 1 + P.n 2 * P.n 2) * hu + hn - (P.n 0 * P.ub 0 + P.n 1 * P.ub 1 + P.n 2 * P.ub 2) * hnu) + P.ub 1 * ((c 0 * P.ub 0 + c 1 * P.ub 1 + c 2 * P.ub 2) * hn - (c 0 * P.n 0 + c 1 * P.n 1 + c 2 * P.n 2) * hnu) +
              P.n 1 * ((P.ub 0 * P.ub 0 + P.ub 1 * P.ub 1 + P.ub 2 * P.ub 2) * h0 - (c 0 * P.ub 0 + c 1 * P.ub 1 + c 2 * P.ub 2) * hnu)
          | linear_combination (-c 2) * ((P.n 0 * P.n 0 + P.n 1 * P.n 1 + P.n 2 * P.n 2) * hu + hn - (P.n 0 * P.ub 0 + P.n 1 * P.ub 1 + P.n 2 * P.ub 2) * hnu) + P.ub 2 * ((c 0 * P.ub 0 + c 1 * P.ub 1 + c 2 * P.ub 2) * hn - (c 0 * P.n 0 + c 1 * P.n 1 + c 2 * P.n 2) * hnu) +
              P.n 2 * ((P.ub 0 * P.ub 0 + P.ub 1 * P.ub 1 + P.ub 2 * P.ub 2) * h0 - (c 0 * P.ub 0 + c 1 * P.ub 1 + c 2 * P.ub 2) * hnu)
    · rintro ⟨s, t, rfl, h1, h2, h3, h4⟩
      have e : P.r0 + s • cross P.ub P.n + t • P.ub - P.r0 = s • cross P.ub P.n + t • P.ub := by abel
      rw [e]
      have e0 : dotProduct (s • cross P.ub P.n + t • P.ub) P.n = 0 := by
        simp only [dotProduct, Fin.sum_univ_three] at *
        simp [cross]
        linear_combination t * hnu
      have e1 : dotProduct (s • cross P.ub P.n + t • P.ub) (cross P.ub P.n) = s := by
        simp only [dotProduct, Fin.sum_univ_three] at *
        simp [cross]
        linear_combination s * ((P.n 0 * P.n 0 + P.n 1 * P.n 1 + P.n 2 * P.n 2) * hu + hn - (P.n 0 * P.ub 0 + P.n 1 * P.ub 1 + P.n 2 * P.ub 2) * hnu)
      have e2 : dotProduct (s • cross P.ub P.n + t • P.ub) P.ub = t := by
        simp only [dotProduct, Fin.sum_univ_three] at *
        simp [cross]
        linear_combination t * hu
      rw [e0, e1, e2]
      exact ⟨rfl, h1, h2, h3, h4⟩
  rw [hset]

/-- The unit square in the plane `z = 0`. -/
def square : FinitePlane := { n := ![0, 0, 1], r0 := ![0, 0, 0], ub := ![1, 0, 0], a := 1, b := 1 }

/-- The hypotheses of `plane_removes_iff` hold for the rectangle spanned from the origin by
`(1,0,0)` and `(1,0,0) × (0,0,1) = (0,-1,0)`; a vertical bond through its middle is removed, one beside it
is kept. -/
example : dotProduct square.n square.n = 1 ∧ dotProduct square.ub square.ub = 1 ∧
    dotProduct square.n square.ub = 0 ∧ 0 < square.a ∧ 0 < square.b ∧
    (Shape.plane square).cuts ![1/2, -1/2, -1] ![1/2, -1/2, 1] = .ok true ∧
    (Shape.plane square).cuts ![3, -1/2, -1] ![3, -1/2, 1] ≠ .ok true := by
  have h1 : dotProduct square.n square.n = 1 := by simp [square, dotProduct, Fin.sum_univ_three]
  have h2 : dotProduct square.ub square.ub = 1 := by simp [square, dotProduct, Fin.sum_univ_three]
  have h3 : dotProduct square.n square.ub = 0 := by simp [square, dotProduct, Fin.sum_univ_three]
  have h4 : 0 < square.a := by simp [square]
  have h5 : 0 < square.b := by simp [square]
  refine ⟨h1, h2, h3, h4, h5, ?_, ?_⟩
  · rw [plane_removes_iff square h1 h2 h3 h4 h5]
    refine ⟨?_, 1/2, by norm_num, by norm_num, 1/2, 1/2, ?_, by norm_num, by norm_num [square], by norm_num, by norm_num [square]⟩
    · simp [Crosses, square, dotProduct, Fin.sum_univ_three]
      norm_num
    · apply v3_ext <;> simp [square, cross_apply] <;> norm_num
  · rw [Ne, plane_removes_iff square h1 h2 h3 h4 h5]
    rintro ⟨_, s, hs0, hs1, a, b, hX, h6, h7, h8, h9⟩
    have := congrFun hX 0
    simp [square, cross_apply] at this
    simp [square] at h9
    norm_num at h9
    linarith

/-- C16, disk: for a disk of radius `r ≥ 0`, a bond is removed exactly if it is not parallel to the plane
(up to the tolerance) and the segment meets the open disk. -/
theorem disk_removes_iff (D : Disk) (hr : 0 ≤ D.radius) (p q : V3) :
    (Shape.disk D).cuts p q = .ok true ↔
      Crosses 1e-15 D.normal p q ∧ Meets p q (disk D.center D.normal D.radius) := by
  have h := true_iff (tol := 1e-15) (by norm_num) D.center D.normal (fun x => if (x 0 - D.center 0) * (x 0 - D.center 0) +
      (x 1 - D.center 1) * (x 1 - D.center 1) + (x 2 - D.center 2) * (x 2 - D.center 2) <
      D.radius * D.radius then Outcome.ok true else Outcome.ok false) p q
  have hset : {X : V3 | dotProduct (X - D.center) D.normal = 0 ∧ (if (X 0 - D.center 0) * (X 0 - D.center 0) +
      (X 1 - D.center 1) * (X 1 - D.center 1) + (X 2 - D.center 2) * (X 2 - D.center 2) <
      D.radius * D.radius then Outcome.ok true else Outcome.ok false) = .ok true} =
      disk D.center D.normal D.radius := by
    ext X
    simp only [Set.mem_ofPred_eq, disk, len, Pi.sub_apply]
    rw [Real.sqrt_lt (add_nonneg (add_nonneg (mul_self_nonneg _) (mul_self_nonneg _)) (mul_self_nonneg _)) hr,
      pow_two]
    constructor
    · rintro ⟨h1, h2⟩
      exact ⟨h1, by by_contra hh; rw [if_neg hh] at h2; cases h2⟩
    · rintro ⟨h1, h2⟩
      exact ⟨h1, by rw [if_pos h2]⟩
  rw [hset] at h
  exact h

/-- A disk of radius 1 removes a bond through its center. -/
example : 0 ≤ (1 : ℝ) ∧ (Shape.disk { center := ![0, 0, 0], normal := ![0, 0, 1], radius := 1 }).cuts
    ![0, 0, -1] ![0, 0, 1] = .ok true := by
  refine ⟨zero_le_one, ?_⟩
  rw [disk_removes_iff _ zero_le_one]
  refine ⟨?_, 1/2, by norm_num, by norm_num, ?_, ?_⟩
  · simp [Crosses, dotProduct, Fin.sum_univ_three]
    norm_num
  · simp [dotProduct, Fin.sum_univ_three]
    norm_num
  · simp [len]
    norm_num

/-- C16, triangle: for a triangle that is not degenerate, with unit normal `n` (either one), a bond is
removed exactly if it is not parallel to the plane (up to the tolerance) and the segment meets the
triangle (up to the tolerance). -/
theorem triangle_removes_iff (T : Triangle) (hT : crossProduct (T.v2 - T.v1) (T.v3 - T.v1) ≠ 0)
    (n : V3) (hn : dotProduct n n = 1) (h2 : dotProduct n (T.v2 - T.v1) = 0)
    (h3 : dotProduct n (T.v3 - T.v1) = 0) (p q : V3) :
    (Shape.triangle T).cuts p q = .ok true ↔
      Crosses 1e-14 n p q ∧ Meets p q (triangle 1e-14 T.v1 T.v2 T.v3) := by
  rw [cross_eq] at hT
  obtain ⟨m, hm⟩ := unitNormal_of hT
  obtain ⟨k, hk, hmk, _⟩ := unitNormal_ok hm
  simp only [Shape.cuts, Triangle.cuts, hm]
  rw [true_iff (by norm_num) T.v1 m
    (fun X => baryInside 1e-14 (T.v3 - T.v1) (T.v2 - T.v1) (X - T.v1)) p q]
  have hcr : Crosses 1e-14 m p q ↔ Crosses 1e-14 n p q := by
    unfold Crosses
    rw [unit_abs hn h2 h3 hm]
  have hset : {X | dotProduct (X - T.v1) m = 0 ∧
      baryInside 1e-14 (T.v3 - T.v1) (T.v2 - T.v1) (X - T.v1) = .ok true} =
      triangle 1e-14 T.v1 T.v2 T.v3 := by
    have hT' := cross_swap_ne hT
    have hm0 : m ≠ 0 := by
      rw [hmk]; exact smul_ne_zero hk hT
    have hm2 : dotProduct m (T.v2 - T.v1) = 0 := by
      rw [hmk, dotProduct_comm, plane_smul hk]
      simp only [dotProduct, Fin.sum_univ_three, cross, Matrix.cons_val_zero, Matrix.cons_val_one,
        Matrix.cons_val_two, Matrix.head_cons, Matrix.tail_cons]
      ring
    have hm3 : dotProduct m (T.v3 - T.v1) = 0 := by
      rw [hmk, dotProduct_comm, plane_smul hk]
      simp only [dotProduct, Fin.sum_univ_three, cross, Matrix.cons_val_zero, Matrix.cons_val_one,
        Matrix.cons_val_two, Matrix.head_cons, Matrix.tail_cons]
      ring
    ext X
    simp only [Set.mem_ofPred_eq, triangle]
    constructor
    · rintro ⟨h4, h5⟩
      rw [bary_iff hT' (perp_transfer hm0 hm3 hm2 hT' h4)] at h5
      obtain ⟨s, t, hX, h6⟩ := h5
      refine ⟨s, t, ?_, h6⟩
      rw [add_assoc, ← hX]; abel
    · rintro ⟨s, t, hX, h6⟩
      have hX' : X - T.v1 = s • (T.v3 - T.v1) + t • (T.v2 - T.v1) := by
        rw [hX]; abel
      have h4 : dotProduct (X - T.v1) m = 0 := by
        rw [hX', add_dotProduct, smul_dotProduct, smul_dotProduct, dotProduct_comm _ m, dotProduct_comm _ m,
          hm2, hm3, smul_zero, smul_zero, add_zero]
      exact ⟨h4, (bary_iff hT' (perp_transfer hm0 hm3 hm2 hT' h4)).mpr ⟨s, t, hX', h6⟩⟩
  rw [hcr, hset]

/-- A triangle in the plane `z = 0` removes a bond through it. -/
example : (Shape.triangle ⟨![0, 0, 0], ![1, 0, 0], ![0, 1, 0]⟩).cuts ![1/4, 1/4, -1] ![1/4, 1/4, 1] =
    .ok true := by
  rw [triangle_removes_iff _ ?_ ![0, 0, 1]]
  · refine ⟨?_, 1/2, by norm_num, by norm_num, 1/4, 1/4, ?_, by norm_num, by norm_num, by norm_num⟩
    · simp [Crosses, dotProduct, Fin.sum_univ_three]
      norm_num
    · apply v3_ext <;> simp
      norm_num
  · simp [dotProduct, Fin.sum_univ_three]
  · simp [dotProduct, Fin.sum_univ_three]
  · simp [dotProduct, Fin.sum_univ_three]
  · intro h
    have := congrFun h 2
    simp [cross_apply] at this

/-- C16, quadrilateral: for a plane quadrilateral whose two triangles `v1 v2 v3` and `v1 v3 v4` are not
degenerate, a bond is removed exactly if it is not parallel to the plane (up to the tolerance) and the
segment meets one of the two triangles (up to the tolerance). -/
theorem quad_removes_iff (Q : Quad) (hQ : crossProduct (Q.v2 - Q.v1) (Q.v4 - Q.v1) ≠ 0)
    (hT1 : crossProduct (Q.v3 - Q.v1) (Q.v2 - Q.v1) ≠ 0) (hT2 : crossProduct (Q.v3 - Q.v1) (Q.v4 - Q.v1) ≠ 0)
    (n : V3) (hn : dotProduct n n = 1) (h2 : dotProduct n (Q.v2 - Q.v1) = 0)
    (h3 : dotProduct n (Q.v3 - Q.v1) = 0) (h4 : dotProduct n (Q.v4 - Q.v1) = 0) (p q : V3) :
    (Shape.quad Q).cuts p q = .ok true ↔
      Crosses 1e-14 n p q ∧
      Meets p q (triangle 1e-14 Q.v1 Q.v2 Q.v3 ∪ triangle 1e-14 Q.v1 Q.v4 Q.v3) := by
  rw [cross_eq] at hQ hT1 hT2
  obtain ⟨m, hm⟩ := unitNormal_of hQ
  obtain ⟨k, hk, hmk, _⟩ := unitNormal_ok hm
  simp only [Shape.cuts, Quad.cuts, hm]
  rw [true_iff (by norm_num) Q.v1 m
    (fun X => orBoth (baryInside 1e-14 (Q.v3 - Q.v1) (Q.v2 - Q.v1) (X - Q.v1))
      (baryInside 1e-14 (Q.v3 - Q.v1) (Q.v4 - Q.v1) (X - Q.v1))) p q]
  have hcr : Crosses 1e-14 m p q ↔ Crosses 1e-14 n p q := by
    unfold Crosses
    rw [unit_abs hn h2 h4 hm]
  have hm0 : m ≠ 0 := by
    rw [hmk]; exact smul_ne_zero hk hQ
  have hn0 : n ≠ 0 := by
    intro h0; rw [h0] at hn; simp at hn
  have hm2 : dotProduct m (Q.v2 - Q.v1) = 0 := by
    rw [hmk, dotProduct_comm, plane_smul hk]
    simp only [dotProduct, Fin.sum_univ_three, cross, Matrix.cons_val_zero, Matrix.cons_val_one,
      Matrix.cons_val_two, Matrix.head_cons, Matrix.tail_cons]
    ring
  have hm4 : dotProduct m (Q.v4 - Q.v1) = 0 := by
    rw [hmk, dotProduct_comm, plane_smul hk]
    simp only [dotProduct, Fin.sum_univ_three, cross, Matrix.cons_val_zero, Matrix.cons_val_one,
      Matrix.cons_val_two, Matrix.head_cons, Matrix.tail_cons]
    ring
  have hm3 : dotProduct m (Q.v3 - Q.v1) = 0 := by
    rw [hmk, dotProduct_comm, plane_smul hk]
    exact perp_transfer hn0 h2 h4 hQ (by rw [dotProduct_comm]; exact h3)
  have hset : {X | dotProduct (X - Q.v1) m = 0 ∧
      orBoth (baryInside 1e-14 (Q.v3 - Q.v1) (Q.v2 - Q.v1) (X - Q.v1))
        (baryInside 1e-14 (Q.v3 - Q.v1) (Q.v4 - Q.v1) (X - Q.v1)) = .ok true} =
      triangle 1e-14 Q.v1 Q.v2 Q.v3 ∪ triangle 1e-14 Q.v1 Q.v4 Q.v3 := by
    have hor : ∀ u w : Bool, orBoth (.ok u) (.ok w) = .ok true ↔ (u = true ∨ w = true) := by
      intro u w; cases u <;> cases w <;> simp [orBoth]
    have hplane : ∀ (X e f : V3) (s t : ℝ), dotProduct m e = 0 → dotProduct m f = 0 →
        X = Q.v1 + s • e + t • f → X - Q.v1 = s • e + t • f ∧ dotProduct (X - Q.v1) m = 0 := by
      intro X e f s t he hf hX
      have hX' : X - Q.v1 = s • e + t • f := by rw [hX]; abel
      refine ⟨hX', ?_⟩
      rw [hX', add_dotProduct, smul_dotProduct, smul_dotProduct, dotProduct_comm _ m, dotProduct_comm _ m,
          he, hf, smul_zero, smul_zero, add_zero]
    have hok : ∀ a b c : V3, cross a b ≠ 0 → ∃ u, baryInside 1e-14 a b c = .ok u := by
      intro a b c h
      simp only [baryInside, if_neg (gram_pos h)]
      exact ⟨_, rfl⟩
    ext X
    obtain ⟨u, hu⟩ := hok _ _ (X - Q.v1) hT1
    obtain ⟨w, hw⟩ := hok _ _ (X - Q.v1) hT2
    simp only [Set.mem_ofPred_eq, Set.mem_union, triangle]
    rw [hu, hw, hor]
    constructor
    · rintro ⟨h5, h6⟩
      rcases h6 with h6 | h6
      · left
        rw [h6, bary_iff hT1 (perp_transfer hm0 hm3 hm2 hT1 h5)] at hu
        obtain ⟨s, t, hX, h7⟩ := hu
        refine ⟨s, t, ?_, h7⟩
        rw [add_assoc, ← hX]; abel
      · right
        rw [h6, bary_iff hT2 (perp_transfer hm0 hm3 hm4 hT2 h5)] at hw
        obtain ⟨s, t, hX, h7⟩ := hw
        refine ⟨s, t, ?_, h7⟩
        rw [add_assoc, ← hX]; abel
    · rintro (⟨s, t, hX, h7⟩ | ⟨s, t, hX, h7⟩)
      · obtain ⟨hX', h5⟩ := hplane X _ _ s t hm3 hm2 hX
        have := (bary_iff hT1 (perp_transfer hm0 hm3 hm2 hT1 h5)).mpr ⟨s, t, hX', h7⟩
        rw [hu] at this
        injection this with this
        exact ⟨h5, Or.inl this⟩
      · obtain ⟨hX', h5⟩ := hplane X _ _ s t hm3 hm4 hX
        have := (bary_iff hT2 (perp_transfer hm0 hm3 hm4 hT2 h5)).mpr ⟨s, t, hX', h7⟩
        rw [hw] at this
        injection this with this
        exact ⟨h5, Or.inr this⟩
  rw [hcr, hset]

/-- The unit square as a quadrilateral removes a bond through its second triangle. -/
example : (Shape.quad ⟨![0, 0, 0], ![1, 0, 0], ![1, 1, 0], ![0, 1, 0]⟩).cuts ![1/4, 3/4, -1] ![1/4, 3/4, 1] =
    .ok true := by
  rw [quad_removes_iff _ ?_ ?_ ?_ ![0, 0, 1]]
  · refine ⟨?_, 1/2, by norm_num, by norm_num, Or.inr ⟨1/4, 1/2, ?_, by norm_num, by norm_num, by norm_num⟩⟩
    · simp [Crosses, dotProduct, Fin.sum_univ_three]
      norm_num
    · apply v3_ext <;> simp <;> norm_num
  · simp [dotProduct, Fin.sum_univ_three]
  · simp [dotProduct, Fin.sum_univ_three]
  · simp [dotProduct, Fin.sum_univ_three]
  · simp [dotProduct, Fin.sum_univ_three]
  · intro h
    have := congrFun h 2
    simp [cross_apply] at this
  · intro h
    have := congrFun h 2
    simp [cross_apply] at this
  · intro h
    have := congrFun h 2
    simp [cross_apply] at this

/-- C16, the loop: starting from cleared flags and after all filters have run, the flag of an entry of the
search result is set exactly if some filter excludes it: because it is the point itself, or because the
filter cuts the bond. -/
theorem filters_mark_iff (fs : List BondFilter) (pt : V3) (i : Nat) (xOverlap : Nat → V3) (tree : List Nat)
    (bs : List Bool) (h : runFilters fs pt i xOverlap tree (List.replicate tree.length false) = .ok bs)
    (k uid : Nat) (hk : tree[k]? = some uid) :
    bs[k]? = some true ↔
      ∃ f ∈ fs, (i = uid ∧ f.includeSelf = false) ∨ f.shape.cuts pt (xOverlap uid) = .ok true := by
  obtain ⟨_, h2⟩ := runFilters_ok h (by simp)
  rw [h2 k uid hk]
  have : ¬ (List.replicate tree.length false)[k]? = some true := by
    rw [List.getElem?_replicate]
    split <;> simp
  simp [this]

/-- Two filters, three candidates: the point itself and the one below the disk are excluded. -/
example : ∃ bs, runFilters [⟨.default, false⟩, ⟨.disk { center := ![0, 0, 0], normal := ![0, 0, 1], radius := 1 }, false⟩]
    ![0, 0, 1] 7 (fun k => if k = 8 then ![0, 0, -1] else ![0, 0, 1]) [7, 8, 9] [false, false, false] = .ok bs ∧
    bs[1]? = some true := by
  have hd : ∀ X Y : V3, ∃ b, (Shape.disk { center := ![0, 0, 0], normal := ![0, 0, 1], radius := 1 }).cuts X Y = .ok b := by
    intro X Y
    simp only [Shape.cuts, Disk.cuts]
    split
    · exact ⟨_, rfl⟩
    · split <;> exact ⟨_, rfl⟩
  obtain ⟨bs, hbs⟩ := runFilters_total
    (fs := [⟨.default, false⟩, ⟨.disk { center := ![0, 0, 0], normal := ![0, 0, 1], radius := 1 }, false⟩])
    (pt := ![0, 0, 1]) (i := 7) (xO := fun k => if k = 8 then ![0, 0, -1] else ![0, 0, 1]) (tree := [7, 8, 9])
    (flags := [false, false, false]) rfl (by
      intro f hf uid _ _
      simp only [List.mem_cons, List.not_mem_nil, or_false] at hf
      rcases hf with rfl | rfl
      · exact ⟨false, rfl⟩
      · exact hd _ _)
  refine ⟨bs, hbs, ?_⟩
  rw [filters_mark_iff _ _ _ _ [7, 8, 9] bs hbs 1 8 rfl]
  refine ⟨⟨.disk { center := ![0, 0, 0], normal := ![0, 0, 1], radius := 1 }, false⟩, by simp, Or.inr ?_⟩
  simp only [if_true]
  rw [disk_removes_iff _ zero_le_one]
  refine ⟨?_, 1/2, by norm_num, by norm_num, ?_, ?_⟩
  · simp [Crosses, dotProduct, Fin.sum_univ_three]
    norm_num
  · simp [dotProduct, Fin.sum_univ_three]
    norm_num
  · simp [len]
    norm_num

end Verif.Filter
