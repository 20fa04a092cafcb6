import Verif.Hardening.Cubic
import Mathlib.Tactic.Positivity
import Mathlib.Tactic.NormNum

/-! Lemmas for C129: what `updateDeltaLambda` returns. -/

noncomputable section

namespace Verif.Hardening

open Verif

/-- In terms of the depressed variable. -/
theorem depressed (a b c x : ℝ) :
    (x + a / 3) ^ 3 - 3 * ((a * a - 3 * b) / 9) * (x + a / 3) +
      2 * ((2 * a * a * a - 9 * a * b + 27 * c) / 54) = x ^ 3 + a * x ^ 2 + b * x + c := by
  ring

/-- A cubic with non-negative coefficients has no positive root. -/
theorem no_positive_root {a b c x : ℝ} (ha : 0 < a) (hb : 0 < b) (hc : 0 ≤ c) (hx : 0 < x)
    (h : x ^ 3 + a * x ^ 2 + b * x + c = 0) : False := by
  have : 0 < x ^ 3 + a * x ^ 2 + b * x := by positivity
  linarith

theorem threeRoots_spec {a b c : ℝ} (ha : 0 < a) (hb : 0 < b) {Q R : ℝ}
    (hQ : Q = (a * a - 3 * b) / 9) (hR : R = (2 * a * a * a - 9 * a * b + 27 * c) / 54)
    (h : R * R < Q * Q * Q) :
    (0 ≤ c ∧ threeRoots a Q R = 0) ∨
      (c < 0 ∧ 0 < threeRoots a Q R ∧
        threeRoots a Q R ^ 3 + a * threeRoots a Q R ^ 2 + b * threeRoots a Q R + c = 0) := by
  have hf := fun x => trig_factor (a := a) h x
  simp only [threeRoots]
  simp only at hf
  generalize -2 * Real.sqrt Q * Real.cos (Real.arccos (R / Real.sqrt (Q * Q * Q)) / 3) - a / 3 = r1 at *
  generalize -2 * Real.sqrt Q * Real.cos (Real.arccos (R / Real.sqrt (Q * Q * Q)) / 3 + 2 * Real.pi / 3) -
    a / 3 = r2 at *
  generalize -2 * Real.sqrt Q * Real.cos (Real.arccos (R / Real.sqrt (Q * Q * Q)) / 3 - 2 * Real.pi / 3) -
    a / 3 = r3 at *
  have hp : ∀ x, (x - r1) * (x - r2) * (x - r3) = x ^ 3 + a * x ^ 2 + b * x + c := by
    intro x
    rw [hf x, hQ, hR, depressed]
  have hs := select r1 r2 r3
  simp only at hs
  generalize (smaller (smaller (smaller none r1) r2) r3).getD 0 = d at *
  rcases hs with ⟨h0, h1, h2, h3⟩ | ⟨hpos, hd⟩
  · left
    refine ⟨?_, h0⟩
    have e := hp 0
    have n1 := not_lt.1 h1
    have n2 := not_lt.1 h2
    have n3 := not_lt.1 h3
    have : 0 ≤ (-r1) * (-r2) * (-r3) :=
      mul_nonneg (mul_nonneg (by linarith) (by linarith)) (by linarith)
    nlinarith
  · have hroot : d ^ 3 + a * d ^ 2 + b * d + c = 0 := by
      rw [← hp d]
      rcases hd with e | e | e <;> rw [e] <;> ring
    right
    refine ⟨?_, hpos, hroot⟩
    by_contra hc
    exact no_positive_root ha hb (not_lt.1 hc) hpos hroot

theorem oneRoot_spec {a b c : ℝ} (ha : 0 < a) (hb : 0 < b) {Q R d : ℝ}
    (hQ : Q = (a * a - 3 * b) / 9) (hR : R = (2 * a * a * a - 9 * a * b + 27 * c) / 54)
    (h : ¬ R * R < Q * Q * Q) (hd : oneRoot a Q R = .ok d) :
    (0 ≤ c ∧ d = 0) ∨ (c < 0 ∧ 0 < d ∧ d ^ 3 + a * d ^ 2 + b * d + c = 0) := by
  rw [oneRoot] at hd
  simp only at hd
  split at hd
  · cases hd
  · next hA =>
    have hcub := cardano_spec h hA
    have hprod : cardano Q R * (Q / cardano Q R) = Q := by field_simp
    generalize cardano Q R = A at *
    generalize Q / A = B at *
    have hroot : (A + B - a / 3) ^ 3 + a * (A + B - a / 3) ^ 2 + b * (A + B - a / 3) + c = 0 := by
      rw [← depressed, ← hQ, ← hR]
      have : A + B - a / 3 + a / 3 = A + B := by ring
      rw [this]
      linear_combination hcub + 3 * (A + B) * hprod
    have hquad : 0 ≤ (a / 3) ^ 2 + (A + B) * (a / 3) + ((A + B) ^ 2 - 3 * Q) := by
      rw [← hprod]
      nlinarith [sq_nonneg (A - B), sq_nonneg (a / 3 + (A + B) / 2)]
    have hc : c = -(A + B - a / 3) * ((a / 3) ^ 2 + (A + B) * (a / 3) + ((A + B) ^ 2 - 3 * Q)) := by
      have e := depressed a b c 0
      rw [← hQ, ← hR] at e
      have e0 : c = (0 + a / 3) ^ 3 - 3 * Q * (0 + a / 3) + 2 * R := by rw [e]; ring
      rw [e0]
      linear_combination hcub + 3 * (A + B) * hprod
    split at hd
    · next hneg =>
      cases hd
      left
      exact ⟨by rw [hc]; exact mul_nonneg (by linarith) hquad, rfl⟩
    · next hnn =>
      have hnn' := not_lt.1 hnn
      have hdv : A + B - a / 3 = d := by injection hd
      rw [hdv] at hroot hnn' hc
      rcases hnn'.eq_or_lt with e | hpos
      · left
        rw [← e] at hroot
        exact ⟨by linarith, e.symm⟩
      · right
        refine ⟨?_, hpos, hroot⟩
        by_contra hc'
        exact no_positive_root ha hb (not_lt.1 hc') hpos hroot

/-- `oneRoot` divides by zero only if the cubic is a third power. -/
theorem oneRoot_ok {a Q R : ℝ} (h : ¬ R * R < Q * Q * Q) (hne : Q ≠ 0 ∨ R ≠ 0) (hQ : 0 ≤ Q) :
    ∃ d, oneRoot a Q R = .ok d := by
  have hR : R ≠ 0 := by
    intro h0
    rcases hne with hq | hr
    · have : 0 < Q := lt_of_le_of_ne hQ (Ne.symm hq)
      have : 0 < Q * Q * Q := by positivity
      rw [h0] at h
      apply h
      linarith
    · exact hr h0
  have hA : cardano Q R ≠ 0 := by
    have : 0 < |R| := abs_pos.2 hR
    have hb : 0 < |R| + Real.sqrt (R * R - Q * Q * Q) := by positivity
    rw [cardano]
    apply mul_ne_zero _ (Real.rpow_pos_of_pos hb _).ne'
    rw [sign]
    split
    · norm_num
    · next hp =>
      rw [if_pos (lt_of_le_of_ne (not_lt.1 hp) hR)]
      norm_num
  rw [oneRoot]
  simp only
  rw [if_neg hA]
  split <;> exact ⟨_, rfl⟩

theorem coefA_pos {l y al H : ℝ} (hal : 0 < al) (hH : 0 < H) (hl : 0 ≤ l) (hy : 0 ≤ y) :
    0 < coefA l y al H := by
  rw [coefA]; positivity

theorem coefB_pos {l y al H : ℝ} (hal : 0 < al) (hH : 0 < H) (hl : 0 ≤ l) (hy : 0 ≤ y) :
    0 < coefB l y al H := by
  rw [coefB]; positivity

/-- The cubic is the yield condition with the new multiplier, multiplied out. -/
theorem cubic_yield {t l y al H d : ℝ} (hal : 0 < al) (hH : 0 < H) :
    d ^ 3 + coefA l y al H * d ^ 2 + coefB l y al H * d + coefC t l y al H =
      ((y + H * (l + d)) * (1 + al * d) ^ 2 - t * t / 2) / (al * al * H) := by
  rw [coefA, coefB, coefC]
  field_simp
  ring

theorem coefC_neg {t l y al H : ℝ} (hal : 0 < al) (hH : 0 < H) :
    coefC t l y al H < 0 ↔ y + H * l < t * t / 2 := by
  have hpos : 0 < 2 * al * al * H := by positivity
  rw [coefC, div_neg_iff]
  constructor
  · rintro (⟨_, h⟩ | ⟨h, _⟩)
    · linarith
    · linarith
  · intro h
    exact .inr ⟨by linarith, hpos⟩

theorem disc_sq {l y al H : ℝ} (hal : 0 < al) (hH : 0 < H) :
    (coefA l y al H * coefA l y al H - 3 * coefB l y al H) / 9 = ((l + y / H - 1 / al) / 3) ^ 2 := by
  rw [coefA, coefB]
  field_simp
  ring

/-- What `updateDeltaLambda` returns for a material that hardens. -/
theorem updateDeltaLambda_spec {t l y al H : ℝ} (hal : 0 < al) (hH : 0 < H) (hl : 0 ≤ l) (hy : 0 ≤ y)
    (ht : t ≠ 0) :
    ∃ d, updateDeltaLambda t l y al H = .ok d ∧
      ((t * t / 2 ≤ y + H * l ∧ d = 0) ∨
        (y + H * l < t * t / 2 ∧ 0 < d ∧ t * t / 2 = (y + H * (l + d)) * (1 + al * d) ^ 2)) := by
  have ha := coefA_pos hal hH hl hy
  have hb := coefB_pos hal hH hl hy
  have conv : ∀ d, (0 ≤ coefC t l y al H ∧ d = 0) ∨ (coefC t l y al H < 0 ∧ 0 < d ∧
      d ^ 3 + coefA l y al H * d ^ 2 + coefB l y al H * d + coefC t l y al H = 0) →
      ((t * t / 2 ≤ y + H * l ∧ d = 0) ∨
        (y + H * l < t * t / 2 ∧ 0 < d ∧ t * t / 2 = (y + H * (l + d)) * (1 + al * d) ^ 2)) := by
    rintro d (⟨h1, h2⟩ | ⟨h1, h2, h3⟩)
    · left
      refine ⟨?_, h2⟩
      by_contra hc
      exact absurd ((coefC_neg hal hH).2 (not_le.1 hc)) (not_lt.2 h1)
    · right
      refine ⟨(coefC_neg hal hH).1 h1, h2, ?_⟩
      rw [cubic_yield hal hH, div_eq_zero_iff] at h3
      rcases h3 with h3 | h3
      · linarith
      · exact absurd h3 (by positivity)
  have hne : ¬ (al = 0 ∨ H = 0) := by rintro (h | h) <;> linarith
  rw [updateDeltaLambda, if_neg hne]
  simp only
  split
  · next h => exact ⟨_, rfl, conv _ (threeRoots_spec ha hb rfl rfl h)⟩
  · next h =>
    have hQ := disc_sq (l := l) (y := y) hal hH
    have hne : (coefA l y al H * coefA l y al H - 3 * coefB l y al H) / 9 ≠ 0 ∨
        (2 * coefA l y al H * coefA l y al H * coefA l y al H - 9 * coefA l y al H * coefB l y al H +
          27 * coefC t l y al H) / 54 ≠ 0 := by
      by_contra hcon
      rw [not_or, not_not, not_not] at hcon
      obtain ⟨h1, h2⟩ := hcon
      rw [hQ] at h1
      have h3 : l + y / H = 1 / al := by
        have := pow_eq_zero_iff (n := 2) (by norm_num) |>.1 h1
        linarith
      have h4 : coefA l y al H = 3 / al := by rw [coefA, add_assoc, h3]; ring
      have hy' : y = (1 / al - l) * H := by
        have : y / H = 1 / al - l := by linarith
        field_simp at this ⊢
        linarith
      have h5 : coefB l y al H = 3 / al ^ 2 := by
        rw [coefB, hy']
        field_simp
        ring
      have h6 : coefC t l y al H = 1 / al ^ 3 - t * t / (2 * al * al * H) := by
        rw [coefC, hy']
        field_simp
        ring
      rw [h4, h5, h6] at h2
      have h7 : t * t / (2 * al * al * H) = 0 := by
        field_simp at h2
        field_simp
        nlinarith
      rw [div_eq_zero_iff] at h7
      rcases h7 with h7 | h7
      · exact ht (mul_self_eq_zero.1 h7)
      · exact absurd h7 (by positivity)
    obtain ⟨d, hd⟩ := oneRoot_ok (a := coefA l y al H) h hne (by rw [hQ]; positivity)
    exact ⟨d, hd, conv d (oneRoot_spec ha hb rfl rfl h hd)⟩

/-- What the loop over points uses. -/
theorem increment_spec {t l y al H : ℝ} (hal : 0 < al) (hH : 0 < H) (hl : 0 ≤ l) (hy : 0 ≤ y) :
    ∃ d, increment t l y al H = .ok d ∧
      ((t * t / 2 ≤ y + H * l ∧ d = 0) ∨
        (y + H * l < t * t / 2 ∧ 0 < d ∧ t * t / 2 = (y + H * (l + d)) * (1 + al * d) ^ 2)) := by
  rw [increment]
  split
  · next h =>
    have ht : t ≠ 0 := by
      rintro rfl
      linarith
    obtain ⟨d, hd, hs⟩ := updateDeltaLambda_spec hal hH hl hy ht
    rw [hd]
    have hnn : ¬ d < 0 := by
      rcases hs with ⟨_, rfl⟩ | ⟨_, h, _⟩
      · exact lt_irrefl _
      · exact not_lt.2 h.le
    simp only
    rw [if_neg hnn]
    exact ⟨d, rfl, hs⟩
  · next h =>
    refine ⟨0, rfl, .inl ⟨?_, rfl⟩⟩
    have : 0 ≤ H * l := mul_nonneg hH.le hl
    linarith

end Verif.Hardening
