import Verif.Hardening.Model
import Mathlib.Analysis.SpecialFunctions.Trigonometric.Basic
import Mathlib.Tactic.Linarith
import Mathlib.Tactic.FieldSimp
import Mathlib.Tactic.LinearCombination

/-! Lemmas for C129: the two formulas for the roots of the cubic. -/

noncomputable section

namespace Verif.Hardening

open Verif

theorem smaller_spec {o : Option ℝ} {r : ℝ} (ho : ∀ m, o = some m → 0 < m) :
    (smaller o r = none ↔ o = none ∧ ¬ 0 < r) ∧
      ∀ m, smaller o r = some m → 0 < m ∧ (m = r ∨ o = some m) := by
  cases o with
  | none =>
    simp only [smaller]
    split
    · next h => exact ⟨by simp [h], fun m hm => by cases hm; exact ⟨h, .inl rfl⟩⟩
    · next h => exact ⟨by simp [h], fun m hm => by cases hm⟩
  | some k =>
    simp only [smaller]
    split
    · next h => exact ⟨by simp, fun m hm => by cases hm; exact ⟨h.1, .inl rfl⟩⟩
    · exact ⟨by simp, fun m hm => by cases hm; exact ⟨ho k rfl, .inr rfl⟩⟩

/-- The selection among three roots: zero if none is positive, otherwise a positive one. -/
theorem select (r1 r2 r3 : ℝ) :
    let d := (smaller (smaller (smaller none r1) r2) r3).getD 0
    (d = 0 ∧ ¬ 0 < r1 ∧ ¬ 0 < r2 ∧ ¬ 0 < r3) ∨ (0 < d ∧ (d = r1 ∨ d = r2 ∨ d = r3)) := by
  have s1 := smaller_spec (o := none) (r := r1) (by simp)
  have s2 := smaller_spec (o := smaller none r1) (r := r2) fun m hm => (s1.2 m hm).1
  have s3 := smaller_spec (o := smaller (smaller none r1) r2) (r := r3) fun m hm => (s2.2 m hm).1
  cases h : smaller (smaller (smaller none r1) r2) r3 with
  | none =>
    left
    have h3 := s3.1.1 h
    have h2 := s2.1.1 h3.1
    have h1 := s1.1.1 h2.1
    exact ⟨rfl, h1.2, h2.2, h3.2⟩
  | some m =>
    right
    have h3 := s3.2 m h
    refine ⟨h3.1, ?_⟩
    simp only [Option.getD_some]
    rcases h3.2 with e | e
    · exact .inr (.inr e)
    · rcases (s2.2 m e).2 with e | e
      · exact .inr (.inl e)
      · rcases (s1.2 m e).2 with e | e
        · exact .inl e
        · cases e

theorem cos_two_thirds : Real.cos (2 * Real.pi / 3) = -1 / 2 := by
  have : 2 * Real.pi / 3 = Real.pi - Real.pi / 3 := by ring
  rw [this, Real.cos_pi_sub, Real.cos_pi_div_three]
  ring

theorem sin_two_thirds_sq : Real.sin (2 * Real.pi / 3) ^ 2 = 3 / 4 := by
  have := Real.sin_sq_add_cos_sq (2 * Real.pi / 3)
  rw [cos_two_thirds] at this
  linarith

/-- With three roots by the trigonometric formula, the cubic factorises. -/
theorem trig_factor {a Q R : ℝ} (h : R * R < Q * Q * Q) (x : ℝ) :
    let theta := Real.arccos (R / Real.sqrt (Q * Q * Q))
    (x - (-2 * Real.sqrt Q * Real.cos (theta / 3) - a / 3)) *
      (x - (-2 * Real.sqrt Q * Real.cos (theta / 3 + 2 * Real.pi / 3) - a / 3)) *
      (x - (-2 * Real.sqrt Q * Real.cos (theta / 3 - 2 * Real.pi / 3) - a / 3)) =
    (x + a / 3) ^ 3 - 3 * Q * (x + a / 3) + 2 * R := by
  intro theta
  have hQ3 : 0 < Q * Q * Q := (mul_self_nonneg R).trans_lt h
  have hQ : 0 < Q := by
    by_contra hn
    have : Q * Q * Q ≤ 0 := mul_nonpos_of_nonneg_of_nonpos (mul_self_nonneg Q) (not_lt.1 hn)
    linarith
  have hs := Real.mul_self_sqrt hQ.le
  have hsp := Real.sqrt_pos.2 hQ
  have hS : Real.sqrt (Q * Q * Q) = Real.sqrt Q * Q := by
    have : Q * Q * Q = (Real.sqrt Q * Q) * (Real.sqrt Q * Q) := by
      linear_combination (-(Q * Q)) * hs
    rw [this, Real.sqrt_mul_self (by positivity)]
  have hcos : Real.cos theta * (Real.sqrt Q * Q) = R := by
    have hpos : 0 < Real.sqrt Q * Q := by positivity
    have habs : |R| ≤ Real.sqrt Q * Q := by
      apply abs_le_of_sq_le_sq _ hpos.le
      nlinarith
    have h2 := abs_le.1 habs
    show Real.cos (Real.arccos (R / Real.sqrt (Q * Q * Q))) * _ = R
    rw [hS, Real.cos_arccos]
    · field_simp
    · rw [le_div_iff₀ hpos]; linarith
    · rw [div_le_iff₀ hpos]; linarith
  have htri : Real.cos theta = 4 * Real.cos (theta / 3) ^ 3 - 3 * Real.cos (theta / 3) := by
    rw [← Real.cos_three_mul]
    congr 1
    ring
  rw [Real.cos_add, Real.cos_sub, cos_two_thirds]
  rw [htri] at hcos
  have hsq := sin_two_thirds_sq
  have hone := Real.sin_sq_add_cos_sq (theta / 3)
  generalize Real.cos (theta / 3) = u at *
  generalize Real.sin (theta / 3) = w at *
  generalize Real.sin (2 * Real.pi / 3) = k at *
  generalize Real.sqrt Q = q at *
  have hQq : Q = q * q := hs.symm
  subst hQq
  have hw : w ^ 2 = 1 - u ^ 2 := by linarith
  have hR : R = (4 * u ^ 3 - 3 * u) * (q * (q * q)) := hcos.symm
  subst hR
  have e : ∀ z : ℝ, (z + 2 * q * u) * (z + 2 * q * (u * (-1 / 2) - w * k)) *
      (z + 2 * q * (u * (-1 / 2) + w * k)) =
      z ^ 3 - 3 * (q * q) * z + 2 * ((4 * u ^ 3 - 3 * u) * (q * (q * q))) := by
    intro z
    have hwk : w ^ 2 * k ^ 2 = (1 - u ^ 2) * (3 / 4) := by rw [hw, hsq]
    linear_combination (-4 * q ^ 2 * (z + 2 * q * u)) * hwk
  have := e (x + a / 3)
  linear_combination this

/-- Cardano's formula: `A` and `B = Q / A` have the right product and sum of cubes. -/
theorem cardano_spec {Q R : ℝ} (h : ¬ R * R < Q * Q * Q) (hA : cardano Q R ≠ 0) :
    cardano Q R ^ 3 + (Q / cardano Q R) ^ 3 = -2 * R := by
  have hD : 0 ≤ R * R - Q * Q * Q := by linarith [not_lt.1 h]
  have hDs := Real.mul_self_sqrt hD
  have hR0 : R ≠ 0 := by
    intro h0
    apply hA
    rw [cardano, sign, if_neg (by linarith), if_neg (by linarith)]
    ring
  have hbase : 0 ≤ |R| + Real.sqrt (R * R - Q * Q * Q) := by positivity
  have hcube : ((|R| + Real.sqrt (R * R - Q * Q * Q)) ^ (1 / 3 : ℝ)) ^ 3 =
      |R| + Real.sqrt (R * R - Q * Q * Q) := by
    rw [← Real.rpow_natCast, ← Real.rpow_mul hbase]
    norm_num
  have hpos : 0 < |R| := abs_pos.2 hR0
  have hbpos : 0 < |R| + Real.sqrt (R * R - Q * Q * Q) := by positivity
  rw [div_pow]
  have hsg : sign R * sign R = 1 ∧ sign R * |R| = R := by
    rcases lt_or_gt_of_ne hR0 with hn | hp
    · rw [sign, if_neg (by linarith), if_pos hn, abs_of_neg hn]
      constructor <;> ring
    · rw [sign, if_pos hp, abs_of_pos hp]
      constructor <;> ring
  have hA3 : cardano Q R ^ 3 = -sign R * (|R| + Real.sqrt (R * R - Q * Q * Q)) := by
    rw [cardano, mul_pow, hcube]
    linear_combination (-sign R * (|R| + Real.sqrt (R * R - Q * Q * Q))) * hsg.1
  have hne : cardano Q R ^ 3 ≠ 0 := pow_ne_zero _ hA
  have hprod : cardano Q R ^ 3 * (-sign R * (|R| - Real.sqrt (R * R - Q * Q * Q))) = Q ^ 3 := by
    rw [hA3]
    have habs : |R| * |R| = R * R := abs_mul_abs_self R
    linear_combination (|R| * |R| - Real.sqrt (R * R - Q * Q * Q) * Real.sqrt (R * R - Q * Q * Q)) * hsg.1 +
      habs - hDs
  rw [← hprod, mul_div_cancel_left₀ _ hne, hA3]
  linear_combination (-2) * hsg.2

end Verif.Hardening
