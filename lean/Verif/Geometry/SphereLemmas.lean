import Verif.Geometry.Lemmas
import Mathlib.LinearAlgebra.LinearIndependent.Lemmas

/-! The separation test for triangles, around the origin. -/

noncomputable section

namespace Verif.Geometry

open Verif Verif.Mech

theorem dot_le_of {p q : V3} (h : dot q q ≤ dot q p) : dot q q ≤ dot p p := by
  have h1 := dot_self_nonneg (p - q)
  rw [dot_sub_left, dot_sub_right, dot_sub_right, dot_comm p q] at h1
  linarith

theorem cross_ne_zero {u v : V3} (h : LinearIndependent ℝ ![u, v]) : dot (cross u v) (cross u v) ≠ 0 := by
  intro h0
  have hz := dot_self_eq_zero h0
  have hc : ∀ i, cross u v i = 0 := fun i => by rw [hz]; rfl
  have h2 := hc 0
  have h3 := hc 1
  have h4 := hc 2
  unfold cross at h2 h3 h4
  simp only [Matrix.cons_val_zero, Matrix.cons_val_one, Matrix.cons_val] at h2 h3 h4
  rw [LinearIndependent.pair_iff] at h
  have := h (dot u v) (-(dot u u)) (by
    funext i
    unfold dot
    fin_cases i
    · simp only [Pi.add_apply, Pi.smul_apply, smul_eq_mul, Pi.zero_apply, Fin.zero_eta]
      linear_combination u 1 * h4 - u 2 * h3
    · simp only [Pi.add_apply, Pi.smul_apply, smul_eq_mul, Pi.zero_apply, Fin.mk_one]
      linear_combination u 2 * h2 - u 0 * h4
    · simp only [Pi.add_apply, Pi.smul_apply, smul_eq_mul, Pi.zero_apply, Fin.reduceFinMk]
      linear_combination u 0 * h3 - u 1 * h2)
  have hu := dot_self_eq_zero (neg_eq_zero.mp this.2)
  have := h 1 0 (by rw [hu]; simp)
  exact one_ne_zero this.1

/-! ### Soundness -/

theorem normal_dot (A B C : V3) : dot (cross (B - A) (C - A)) (B - A) = 0 ∧
    dot (cross (B - A) (C - A)) (C - A) = 0 := by
  unfold dot cross
  simp only [Matrix.cons_val_zero, Matrix.cons_val_one, Matrix.cons_val]
  constructor <;> ring

theorem planeSeparates_sound {rr : ℝ} {A B C p : V3} (h : planeSeparates rr A B C)
    (hp : Hull ![A, B, C] p) : rr < dot p p := by
  obtain ⟨he, hd⟩ := h
  set N := cross (B - A) (C - A) with hN
  obtain ⟨h1, h2⟩ := normal_dot A B C
  rw [← hN, dot_sub_right] at h1 h2
  obtain ⟨u, v, w, -, -, -, hs, rfl⟩ := hull_three.mp hp
  set p := u • A + v • B + w • C with hpdef
  have hpN : dot p N = dot A N := by
    rw [hpdef, dot_add_left, dot_add_left, dot_smul_left, dot_smul_left, dot_smul_left]
    rw [dot_comm B N, dot_comm C N, dot_comm A N]
    have hu : u = 1 - v - w := by linarith
    rw [hu]
    linear_combination v * h1 + w * h2
  have hc := dot_sq_le p N
  rw [hpN] at hc
  have hepos : 0 < dot N N := lt_of_le_of_ne (dot_self_nonneg N) (Ne.symm he)
  have : dot A N * dot A N / dot N N ≤ dot p p := by
    rw [div_le_iff₀ hepos, ← sq]; exact hc
  linarith

theorem vertexSeparates_sound {A B C p : V3} (h : vertexSeparates A B C) (hp : Hull ![A, B, C] p) :
    dot A A ≤ dot p p := by
  refine dot_le_of (hull_halfspace hp fun i => ?_)
  fin_cases i
  · exact le_refl _
  · exact h.1.le
  · exact h.2.le

theorem project_perp {A B : V3} (h : dot (B - A) (B - A) ≠ 0) : dot (project A B) (B - A) = 0 := by
  unfold project
  rw [dot_add_left, dot_smul_left, div_mul_cancel₀ _ h, dot_sub_left, dot_zero_left]
  ring

theorem edgeSeparates_sound {rr : ℝ} {A B C p : V3} (h : edgeSeparates rr A B C)
    (hp : Hull ![A, B, C] p) : rr < dot p p := by
  obtain ⟨he, hq, hc⟩ := h
  have hperp := project_perp he
  set Q := project A B with hQ
  have hzq : (0 : V3) - Q = (-1 : ℝ) • Q := by rw [zero_sub, neg_one_smul]
  rw [hzq, dot_smul_left, dot_smul_right] at hq
  rw [hzq, dot_smul_left, dot_sub_right] at hc
  have hA : dot Q A = dot Q Q := by
    have h1 : Q = A + (dot (0 - A) (B - A) / dot (B - A) (B - A)) • (B - A) := rfl
    have h2 : dot Q Q = dot Q A + (dot (0 - A) (B - A) / dot (B - A) (B - A)) * dot Q (B - A) := by
      conv_lhs => rhs; rw [h1]
      rw [dot_add_right, dot_smul_right]
    rw [h2, hperp]; ring
  have hB : dot Q B = dot Q Q := by
    rw [dot_sub_right] at hperp; linarith
  have : dot Q Q ≤ dot p p := by
    refine dot_le_of (hull_halfspace hp fun i => ?_)
    fin_cases i
    · exact hA.ge
    · exact hB.ge
    · show dot Q Q ≤ dot Q C
      linarith
  linarith

theorem hull_swap12 {a b c p : V3} (h : Hull ![a, b, c] p) : Hull ![b, a, c] p := by
  obtain ⟨u, v, w, hu, hv, hw, hs, hp⟩ := hull_three.mp h
  exact hull_three.mpr ⟨v, u, w, hv, hu, hw, by linarith, by rw [hp, add_comm (u • a)]⟩

theorem hull_rotate {a b c p : V3} (h : Hull ![a, b, c] p) : Hull ![b, c, a] p := by
  obtain ⟨u, v, w, hu, hv, hw, hs, hp⟩ := hull_three.mp h
  exact hull_three.mpr ⟨v, w, u, hv, hw, hu, by linarith, by rw [hp]; abel⟩

theorem separation_sound {rr : ℝ} {A B C p : V3} (hA : rr ≤ dot A A) (hB : rr ≤ dot B B)
    (hC : rr ≤ dot C C) (h : separationTest rr A B C = .outside) (hp : Hull ![A, B, C] p) :
    rr ≤ dot p p := by
  unfold separationTest at h
  by_cases h1 : planeSeparates rr A B C
  · exact (planeSeparates_sound h1 hp).le
  rw [if_neg h1] at h
  by_cases h2 : vertexSeparates A B C
  · exact hA.trans (vertexSeparates_sound h2 hp)
  rw [if_neg h2] at h
  by_cases h3 : vertexSeparates B A C
  · exact hB.trans (vertexSeparates_sound h3 (hull_swap12 hp))
  rw [if_neg h3] at h
  by_cases h4 : vertexSeparates C A B
  · exact hC.trans (vertexSeparates_sound h4 (hull_rotate (hull_rotate hp)))
  rw [if_neg h4] at h
  by_cases h5 : edgeSeparates rr A B C
  · exact (edgeSeparates_sound h5 hp).le
  rw [if_neg h5] at h
  by_cases h6 : edgeSeparates rr B C A
  · exact (edgeSeparates_sound h6 (hull_rotate hp)).le
  rw [if_neg h6] at h
  by_cases h7 : edgeSeparates rr C A B
  · exact (edgeSeparates_sound h7 (hull_rotate (hull_rotate hp))).le
  rw [if_neg h7] at h
  exact absurd h (by decide)

theorem separation_cases (rr : ℝ) (A B C : V3) :
    separationTest rr A B C = .outside ∨ separationTest rr A B C = .intersects := by
  unfold separationTest
  by_cases h1 : planeSeparates rr A B C
  · rw [if_pos h1]; exact Or.inl rfl
  rw [if_neg h1]
  by_cases h2 : vertexSeparates A B C
  · rw [if_pos h2]; exact Or.inl rfl
  rw [if_neg h2]
  by_cases h3 : vertexSeparates B A C
  · rw [if_pos h3]; exact Or.inl rfl
  rw [if_neg h3]
  by_cases h4 : vertexSeparates C A B
  · rw [if_pos h4]; exact Or.inl rfl
  rw [if_neg h4]
  by_cases h5 : edgeSeparates rr A B C
  · rw [if_pos h5]; exact Or.inl rfl
  rw [if_neg h5]
  by_cases h6 : edgeSeparates rr B C A
  · rw [if_pos h6]; exact Or.inl rfl
  rw [if_neg h6]
  by_cases h7 : edgeSeparates rr C A B
  · rw [if_pos h7]; exact Or.inl rfl
  rw [if_neg h7]; exact Or.inr rfl

theorem separation_of {rr : ℝ} {A B C : V3}
    (h : planeSeparates rr A B C ∨ vertexSeparates A B C ∨ vertexSeparates B A C ∨
      vertexSeparates C A B ∨ edgeSeparates rr A B C ∨ edgeSeparates rr B C A ∨
      edgeSeparates rr C A B) : separationTest rr A B C = .outside := by
  rcases separation_cases rr A B C with h' | h'
  · exact h'
  · unfold separationTest at h'
    by_cases h1 : planeSeparates rr A B C
    · rw [if_pos h1] at h'; exact absurd h' (by decide)
    rw [if_neg h1] at h'
    by_cases h2 : vertexSeparates A B C
    · rw [if_pos h2] at h'; exact absurd h' (by decide)
    rw [if_neg h2] at h'
    by_cases h3 : vertexSeparates B A C
    · rw [if_pos h3] at h'; exact absurd h' (by decide)
    rw [if_neg h3] at h'
    by_cases h4 : vertexSeparates C A B
    · rw [if_pos h4] at h'; exact absurd h' (by decide)
    rw [if_neg h4] at h'
    by_cases h5 : edgeSeparates rr A B C
    · rw [if_pos h5] at h'; exact absurd h' (by decide)
    rw [if_neg h5] at h'
    by_cases h6 : edgeSeparates rr B C A
    · rw [if_pos h6] at h'; exact absurd h' (by decide)
    rw [if_neg h6] at h'
    by_cases h7 : edgeSeparates rr C A B
    · rw [if_pos h7] at h'; exact absurd h' (by decide)
    tauto

/-! ### Completeness -/

theorem plane_of_perp {rr : ℝ} {A B C p : V3} (hN : dot (cross (B - A) (C - A)) (cross (B - A) (C - A)) ≠ 0)
    (hA : dot p (A - p) = 0) (hB : dot p (B - p) = 0) (hC : dot p (C - p) = 0)
    (hp : Hull ![A, B, C] p) (hr : rr < dot p p) : planeSeparates rr A B C := by
  refine ⟨hN, ?_⟩
  set N := cross (B - A) (C - A) with hNdef
  obtain ⟨h1, h2⟩ := normal_dot A B C
  rw [← hNdef, dot_sub_right] at h1 h2
  have hpN : dot p N = dot A N := by
    obtain ⟨u, v, w, -, -, -, hs, hp'⟩ := hull_three.mp hp
    rw [hp', dot_add_left, dot_add_left, dot_smul_left, dot_smul_left, dot_smul_left]
    rw [dot_comm B N, dot_comm C N, dot_comm A N]
    have hu : u = 1 - v - w := by linarith
    rw [hu]
    linear_combination v * h1 + w * h2
  rw [dot_sub_right] at hA hB hC
  have hb : dot p (B - A) = 0 := by rw [dot_sub_right]; linarith
  have hc : dot p (C - A) = 0 := by rw [dot_sub_right]; linarith
  have hx : cross p N = 0 := by
    rw [hNdef]
    generalize B - A = U at hb
    generalize C - A = V at hc
    unfold dot at hb hc
    unfold cross
    funext i
    fin_cases i
    · simp only [Matrix.cons_val_zero, Matrix.cons_val_one, Matrix.cons_val, Fin.zero_eta, Pi.zero_apply]
      linear_combination U 0 * hc - V 0 * hb
    · simp only [Matrix.cons_val_zero, Matrix.cons_val_one, Matrix.cons_val, Fin.mk_one, Pi.zero_apply]
      linear_combination U 1 * hc - V 1 * hb
    · simp only [Matrix.cons_val_zero, Matrix.cons_val_one, Matrix.cons_val, Fin.reduceFinMk, Pi.zero_apply]
      linear_combination U 2 * hc - V 2 * hb
  have hl := lagrange p N
  rw [hx, dot_zero_left, add_zero, hpN] at hl
  have : dot A N * dot A N / dot N N = dot p p := by
    rw [div_eq_iff hN, ← sq]; exact hl
  show rr < _
  rw [this]; exact hr

theorem edge_of {rr : ℝ} {A B C p : V3} {u v : ℝ} (hAB : dot (B - A) (B - A) ≠ 0) (hs : u + v = 1)
    (hp : p = u • A + v • B) (hA : dot p (A - p) = 0) (hB : dot p (B - p) = 0) (hC : 0 < dot p (C - p))
    (hr : rr < dot p p) : edgeSeparates rr A B C := by
  have hq : project A B = p := by
    have hperp : dot p (B - A) = 0 := by
      rw [dot_sub_right] at hA hB ⊢; linarith
    have hpa : p = A + v • (B - A) := by
      rw [hp, show u = 1 - v by linarith, sub_smul, one_smul, smul_sub]; abel
    have hv : dot (0 - A) (B - A) / dot (B - A) (B - A) = v := by
      rw [div_eq_iff hAB]
      have h1 : dot (A + v • (B - A)) (B - A) = 0 := by rw [← hpa]; exact hperp
      rw [dot_add_left, dot_smul_left] at h1
      rw [dot_sub_left, dot_zero_left]
      linarith
    unfold project
    rw [hv, hpa]
  refine ⟨hAB, ?_, ?_⟩
  · rw [hq, zero_sub, ← neg_one_smul ℝ p, dot_smul_left, dot_smul_right]
    show rr < _
    linarith
  · rw [hq, zero_sub, ← neg_one_smul ℝ p, dot_smul_left]
    linarith

theorem separation_complete {rr : ℝ} {A B C : V3}
    (hN : dot (cross (B - A) (C - A)) (cross (B - A) (C - A)) ≠ 0)
    (hfar : ∀ p, Hull ![A, B, C] p → rr < dot p p) : separationTest rr A B C = .outside := by
  obtain ⟨w, hw, hs, hopt⟩ := hull_nearest ![A, B, C]
  have hopt := hopt _ rfl
  set p := ∑ i, w i • (![A, B, C] : Fin 3 → V3) i with hp
  have hH : Hull ![A, B, C] p := ⟨w, hw, hs, hp⟩
  have hr := hfar p hH
  rw [Fin.sum_univ_three] at hs hp
  simp only [Matrix.cons_val_zero, Matrix.cons_val_one, Matrix.cons_val] at hp
  obtain ⟨ha0, ha⟩ := hopt 0
  obtain ⟨hb0, hb⟩ := hopt 1
  obtain ⟨hc0, hc⟩ := hopt 2
  simp only [Matrix.cons_val_zero, Matrix.cons_val_one, Matrix.cons_val] at ha0 ha hb0 hb hc0 hc
  have hAB : dot (B - A) (B - A) ≠ 0 := by
    intro h0
    refine hN ?_
    rw [dot_self_eq_zero h0]
    unfold dot cross
    simp
  have hCA : dot (A - C) (A - C) ≠ 0 := by
    intro h0
    refine hN ?_
    have : C - A = 0 := by rw [← neg_sub, dot_self_eq_zero h0, neg_zero]
    rw [this]
    unfold dot cross
    simp
  have hBC : dot (C - B) (C - B) ≠ 0 := by
    intro h0
    refine hN ?_
    have h1 := dot_self_eq_zero h0
    have : C - A = B - A := by rw [sub_eq_zero.mp h1]
    rw [this]
    unfold dot cross
    simp only [Matrix.cons_val_zero, Matrix.cons_val_one, Matrix.cons_val]
    ring
  apply separation_of
  rcases ha0.eq_or_lt with ea | pa
  · rcases hb0.eq_or_lt with eb | pb
    · rcases hc0.eq_or_lt with ec | pc
      · exact Or.inl (plane_of_perp hN ea.symm eb.symm ec.symm hH hr)
      · have w2 : w 2 = 0 := (mul_eq_zero.mp hc).resolve_right pc.ne'
        rw [w2, zero_smul, add_zero] at hp
        rw [w2, add_zero] at hs
        exact Or.inr <| Or.inr <| Or.inr <| Or.inr <| Or.inl
          (edge_of hAB hs hp ea.symm eb.symm pc hr)
    · have w1 : w 1 = 0 := (mul_eq_zero.mp hb).resolve_right pb.ne'
      rw [w1, zero_smul, add_zero] at hp
      rw [w1, add_zero] at hs
      rcases hc0.eq_or_lt with ec | pc
      · exact Or.inr <| Or.inr <| Or.inr <| Or.inr <| Or.inr <| Or.inr
          (edge_of (u := w 2) (v := w 0) hCA (by linarith) (by rw [hp, add_comm]) ec.symm ea.symm pb hr)
      · have w2 : w 2 = 0 := (mul_eq_zero.mp hc).resolve_right pc.ne'
        rw [w2, zero_smul, add_zero] at hp
        rw [w2, add_zero] at hs
        rw [hs, one_smul] at hp
        rw [hp, dot_sub_right] at pb pc
        exact Or.inr <| Or.inl ⟨by linarith, by linarith⟩
  · have w0 : w 0 = 0 := (mul_eq_zero.mp ha).resolve_right pa.ne'
    rw [w0, zero_smul, zero_add] at hp
    rw [w0, zero_add] at hs
    rcases hb0.eq_or_lt with eb | pb
    · rcases hc0.eq_or_lt with ec | pc
      · exact Or.inr <| Or.inr <| Or.inr <| Or.inr <| Or.inr <| Or.inl
          (edge_of hBC hs hp eb.symm ec.symm pa hr)
      · have w2 : w 2 = 0 := (mul_eq_zero.mp hc).resolve_right pc.ne'
        rw [w2, zero_smul, add_zero] at hp
        rw [w2, add_zero] at hs
        rw [hs, one_smul] at hp
        rw [hp, dot_sub_right] at pa pc
        exact Or.inr <| Or.inr <| Or.inl ⟨by linarith, by linarith⟩
    · have w1 : w 1 = 0 := (mul_eq_zero.mp hb).resolve_right pb.ne'
      rw [w1, zero_smul, zero_add] at hp
      rw [w1, zero_add] at hs
      rw [hs, one_smul] at hp
      rcases hc0.eq_or_lt with ec | pc
      · rw [hp, dot_sub_right] at pa pb
        exact Or.inr <| Or.inr <| Or.inr <| Or.inl ⟨by linarith, by linarith⟩
      · have w2 : w 2 = 0 := (mul_eq_zero.mp hc).resolve_right pc.ne'
        rw [w2] at hs
        exact absurd hs zero_ne_one

/-! ### The number of nodes within -/

theorem numWithin_zero {rr : ℝ} {ps : List V3} (h : numWithin rr ps = 0) : ∀ p ∈ ps, rr ≤ dot p p := by
  intro p hp
  unfold numWithin at h
  rw [List.length_eq_zero_iff, List.filter_eq_nil_iff] at h
  have := h p hp
  simpa using this

theorem numWithin_all {rr : ℝ} {ps : List V3} (h : numWithin rr ps = ps.length) :
    ∀ p ∈ ps, dot p p < rr := by
  intro p hp
  unfold numWithin at h
  rw [List.length_filter_eq_length_iff] at h
  simpa using h p hp

theorem numWithin_some {rr : ℝ} {ps : List V3} (h0 : numWithin rr ps ≠ 0)
    (h1 : numWithin rr ps ≠ ps.length) : (∃ p ∈ ps, dot p p < rr) ∧ ∃ p ∈ ps, rr ≤ dot p p := by
  unfold numWithin at h0 h1
  constructor
  · by_contra hc
    push Not at hc
    refine h0 ?_
    rw [List.length_eq_zero_iff, List.filter_eq_nil_iff]
    intro p hp
    simpa using hc p hp
  · by_contra hc
    push Not at hc
    refine h1 ?_
    rw [List.length_filter_eq_length_iff]
    intro p hp
    simpa using hc p hp

end Verif.Geometry
