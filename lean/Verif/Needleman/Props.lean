import Verif.Needleman.PointLemmas
import Verif.Correspondence.StressProps
import Verif.Return.RunProps

/-! C156 (a step), C157 (the plastic increment). -/

noncomputable section

namespace Verif.Needleman

open Verif Verif.Neigh Verif.Mech Verif.Tensor Verif.Correspondence Matrix
open scoped Classical

/-! ### Materials and deformations for the examples -/

/-- Flow stress proportional to the rate. -/
def viscous : Const := ⟨1, 1, 1, 0, 1, 1, 1, 1, none⟩

theorem viscous_sound : viscous.Sound where
  shear := by norm_num [viscous]
  yield := by norm_num [viscous]
  strainExp := by norm_num [viscous]
  rateExp := by norm_num [viscous]
  refRate := by norm_num [viscous]
  ref0 := by norm_num [viscous]
  ref1 := by norm_num [viscous]
  flaw := by intro f h; cases h

theorem viscous_flow (r e : ℝ) : viscous.flowStress 1 r e = r / (1 + e ^ 2) := by
  simp only [Const.flowStress, viscous]
  rw [Real.rpow_zero, Real.rpow_one]
  ring

/-- Shear. -/
def shearBy (a : ℝ) : M9 := ⟨0, a, 0, a, 0, 0, 0, 0, 0⟩

theorem dev_shearBy (a c : ℝ) : dev (c • (shearBy a).toMatrix) = c • (shearBy a).toMatrix := by
  have ht : mean (shearBy a).toMatrix = 0 := by
    simp [mean, M9.toMatrix, shearBy, Matrix.trace, Fin.sum_univ_three]
  rw [dev_smul]
  unfold dev
  rw [ht, zero_smul, sub_zero]

theorem norm_shearBy (a c : ℝ) : norm9 (c • (shearBy a).toMatrix) = Real.sqrt 2 * |c * a| := by
  have hip : ip (shearBy a).toMatrix (shearBy a).toMatrix = 2 * (a * a) := by
    rw [← contract_eq]
    simp only [contract, shearBy]
    ring
  rw [norm9_smul, norm9, hip, Real.sqrt_mul (by norm_num), Real.sqrt_mul_self_eq_abs, abs_mul]
  ring

theorem elastic_shearBy (P : Const) (dt a : ℝ) :
    elastic P dt (shearBy a) zero = (2 * P.shear * dt) • (shearBy a).toMatrix := by
  have ht : (dt • (shearBy a).toMatrix).trace = 0 := by
    simp [M9.toMatrix, shearBy, Matrix.trace, Fin.sum_univ_three]
  unfold elastic hooke
  rw [ht, toMatrix_zero]
  module

theorem norm_elastic_shearBy (P : Const) (dt a : ℝ) :
    norm9 (dev (elastic P dt (shearBy a) zero)) = Real.sqrt 2 * |2 * P.shear * dt * a| := by
  rw [elastic_shearBy, dev_shearBy, norm_shearBy]

theorem mises_shearBy (P : Const) (dt a : ℝ) :
    vonMises (elastic P dt (shearBy a) zero) = Real.sqrt 3 * |2 * P.shear * dt * a| := by
  unfold vonMises
  rw [norm_elastic_shearBy, ← mul_assoc, ← Real.sqrt_mul (by norm_num)]
  norm_num

theorem sqrt_two : 141 / 100 ≤ Real.sqrt 2 ∧ Real.sqrt 2 ≤ 142 / 100 :=
  ⟨Real.le_sqrt_of_sq_le (by norm_num), by rw [Real.sqrt_le_left (by norm_num)]; norm_num⟩

theorem sqrt_three : 173 / 100 ≤ Real.sqrt 3 ∧ Real.sqrt 3 ≤ 174 / 100 :=
  ⟨Real.le_sqrt_of_sq_le (by norm_num), by rw [Real.sqrt_le_left (by norm_num)]; norm_num⟩

theorem sqrt_third : 0 < Real.sqrt (2 / 3) ∧ Real.sqrt (2 / 3) ≤ 1 ∧ Real.sqrt (2 / 3) * Real.sqrt (2 / 3) = 2 / 3 :=
  ⟨by positivity, by rw [Real.sqrt_le_left (by norm_num)]; norm_num, Real.mul_self_sqrt (by norm_num)⟩

/-- The equation for the plastic increment in shear from rest, for the viscous material. -/
theorem viscous_balance {dt a : ℝ} (hdt : 0 < dt) (ha : 0 < a) (x : ℝ) :
    viscous.balance 1 dt (shearBy a) zero 0 x = Real.sqrt 2 * (dt * a) - x - x / (3 * dt * (1 + x ^ 2)) := by
  have hn := norm_elastic_shearBy viscous dt a
  have hs : viscous.shear = 1 := rfl
  unfold Const.balance
  rw [viscous_flow, hn, elastic_shearBy, dev_shearBy, dev_shearBy, ip_smul_left, ip_smul_right,
    toMatrix_zero, dev_zero, norm9_zero, zero_add, sub_zero, hs]
  have hip : ip (shearBy a).toMatrix (shearBy a).toMatrix = 2 * (a * a) := by
    rw [← contract_eq]
    simp only [contract, shearBy]
    ring
  rw [hip, abs_of_pos (by positivity)]
  have h2 : (2 : ℝ) = Real.sqrt 2 * Real.sqrt 2 := (Real.mul_self_sqrt (by norm_num)).symm
  have hq := sqrt_third.2.2
  have hpos : 0 < Real.sqrt 2 := by positivity
  have e1 : 2 * 1 * dt * (dt * (2 * (a * a))) / (Real.sqrt 2 * (2 * 1 * dt * a)) = Real.sqrt 2 * (dt * a) := by
    rw [div_eq_iff (by positivity)]
    linear_combination (2 * dt ^ 2 * a ^ 2) * h2
  have e2 : Real.sqrt (2 / 3) * (Real.sqrt (2 / 3) * x / dt / (1 + x ^ 2)) / (2 * 1) =
      x / (3 * dt * (1 + x ^ 2)) := by
    have : (1 + x ^ 2) ≠ 0 := by positivity
    field_simp
    rw [Real.sq_sqrt (by norm_num)]
    ring
  rw [e1, e2]

/-! ### C156: a step -/

/-- **C156.**  A step gives a result for all deformations, with plastic strain and von Mises stress of the
stress that is recorded; the mean stress is the elastic one, the deviatoric stress has the direction of the
elastic one and is not larger, below the yield stress the step is elastic, the plastic strain does not
decrease, and symmetric stresses stay symmetric. -/
theorem C156_step {P : Const} (hP : P.Sound) {yield dt eqps : ℝ} (hy : 0 < yield) (hdt : 0 < dt) (he : 0 ≤ eqps)
    (D sigma : M9) :
    ∃ o, point P yield dt D sigma eqps = .ok o ∧ o.mises = vonMises o.stress.toMatrix ∧
      mean o.stress.toMatrix = mean sigma.toMatrix + P.bulk * (dt • D.toMatrix).trace ∧
      (∃ c : ℝ, 0 ≤ c ∧ c ≤ 1 ∧ dev o.stress.toMatrix = c • dev (elastic P dt D sigma)) ∧
      vonMises o.stress.toMatrix ≤ vonMises (elastic P dt D sigma) ∧
      (vonMises (elastic P dt D sigma) < yield → o.stress.toMatrix = elastic P dt D sigma ∧ o.eqps = eqps) ∧
      eqps ≤ o.eqps ∧
      (sigma.toMatrixᵀ = sigma.toMatrix → D.toMatrixᵀ = D.toMatrix → o.stress.toMatrixᵀ = o.stress.toMatrix) := by
  have hmean : mean (elastic P dt D sigma) = mean sigma.toMatrix + P.bulk * (dt • D.toMatrix).trace := by
    unfold elastic
    rw [mean_add, hooke_eq, mean_add, mean_smul, mean_smul, mean_one, mean_dev]
    ring
  have hsym : sigma.toMatrixᵀ = sigma.toMatrix → D.toMatrixᵀ = D.toMatrix →
      (elastic P dt D sigma)ᵀ = elastic P dt D sigma := by
    intro h1 h2
    unfold elastic hooke
    simp only [transpose_add, transpose_smul, h1, h2, transpose_one]
  have hel : ∀ o, Stays P dt D sigma eqps o → o.mises = vonMises o.stress.toMatrix ∧
      mean o.stress.toMatrix = mean sigma.toMatrix + P.bulk * (dt • D.toMatrix).trace ∧
      (∃ c : ℝ, 0 ≤ c ∧ c ≤ 1 ∧ dev o.stress.toMatrix = c • dev (elastic P dt D sigma)) ∧
      vonMises o.stress.toMatrix ≤ vonMises (elastic P dt D sigma) ∧
      (vonMises (elastic P dt D sigma) < yield → o.stress.toMatrix = elastic P dt D sigma ∧ o.eqps = eqps) ∧
      eqps ≤ o.eqps ∧
      (sigma.toMatrixᵀ = sigma.toMatrix → D.toMatrixᵀ = D.toMatrix → o.stress.toMatrixᵀ = o.stress.toMatrix) := by
    rintro o rfl
    have e : (trialStress P.bulk P.shear dt D sigma).toMatrix = elastic P dt D sigma := trial_eq _ _ _ _ _
    simp only [e]
    exact ⟨trivial, hmean, ⟨1, zero_le_one, le_refl _, by rw [one_smul]⟩, le_refl _, fun _ => ⟨trivial, trivial⟩,
      le_refl _, hsym⟩
  obtain ⟨o, ho, h | ⟨h0, r, -, hr0, hr1, h | ⟨ht, h⟩⟩⟩ := point_eq (yield := yield) hP hdt he D sigma
  · exact ⟨o, ho, hel o h.2⟩
  · exact ⟨o, ho, hel o h.2⟩
  · refine ⟨o, ho, ?_⟩
    have hY : 0 ≤ P.target yield dt eqps r.value :=
      flowStress_nonneg hP hy.le (by positivity) (by positivity)
    have e : (trialStress P.bulk P.shear dt D sigma).toMatrix = elastic P dt D sigma := trial_eq _ _ _ _ _
    obtain ⟨a1, a2, a3⟩ := plasticOut_stress P.shear (P.target yield dt eqps r.value) (devStrain dt D)
      (trialStress P.bulk P.shear dt D sigma) sigma eqps
    have am := plasticOut_mises P.shear (P.target yield dt eqps r.value) hY (devStrain dt D)
      (trialStress P.bulk P.shear dt D sigma) sigma eqps
    rw [e] at a1 a2
    rw [← h] at a1 a2 a3 am
    have hm := magnitude_pos (devStress (trialStress P.bulk P.shear dt D sigma))
    have hf0 : 0 ≤ factor (devStress (trialStress P.bulk P.shear dt D sigma)) (P.target yield dt eqps r.value) :=
      div_nonneg (mul_nonneg (Real.sqrt_nonneg _) hY) hm.le
    have hf1 : factor (devStress (trialStress P.bulk P.shear dt D sigma)) (P.target yield dt eqps r.value) ≤ 1 := by
      unfold factor
      rw [div_le_one hm, magnitude_eq, devStress_eq, e]
      refine le_trans ?_ (le_max_right _ _)
      have := mul_le_mul_of_nonneg_left ht.le (Real.sqrt_nonneg (2 / 3 : ℝ))
      unfold vonMises at this
      rw [← mul_assoc, mul_comm (Real.sqrt (2 / 3)) (Real.sqrt (3 / 2)), sqrt_prod, one_mul] at this
      exact this
    refine ⟨a3, a2.trans hmean, ⟨_, hf0, hf1, a1⟩, ?_, fun hlt => absurd hlt (not_lt.mpr h0), ?_, ?_⟩
    · rw [am]
      have := ratio_le (trialStress P.bulk P.shear dt D sigma)
      have := mul_le_mul_of_nonneg_left this hY
      linarith
    · rw [h]
      show eqps ≤ eqps + max 0 _
      linarith [le_max_left (0 : ℝ) (Real.sqrt (2 / 3) * contract (plasticIncrement P.shear (devStrain dt D)
        (returned (devStress (trialStress P.bulk P.shear dt D sigma)) (P.target yield dt eqps r.value))
        (devStress sigma)) (meanDirection (magnitude (devStress (trialStress P.bulk P.shear dt D sigma)))
        (returned (devStress (trialStress P.bulk P.shear dt D sigma)) (P.target yield dt eqps r.value))
        (devStress sigma)))]
    · intro h1 h2
      have hd : o.stress.toMatrix = dev o.stress.toMatrix + mean o.stress.toMatrix • (1 : Mat) := by
        unfold dev
        abel
      rw [hd, a1, transpose_add, transpose_smul, transpose_smul, transpose_one, transpose_dev _ (hsym h1 h2)]

/-- Yielding. -/
theorem viscous_yields : (1 : ℝ) ≤ vonMises (elastic viscous 1 (shearBy (3 / 8)) zero) := by
  rw [mises_shearBy, abs_of_pos (by norm_num [viscous])]
  have := sqrt_three.1
  norm_num [viscous]
  linarith

example : viscous.Sound ∧ (0 : ℝ) < 1 ∧ (zero : M9).toMatrixᵀ = (zero : M9).toMatrix ∧
    1 ≤ vonMises (elastic viscous 1 (shearBy (3 / 8)) zero) ∧
    vonMises (elastic viscous 1 (shearBy (1 / 8)) zero) < 1 ∧
    (shearBy (3 / 8)).toMatrixᵀ = (shearBy (3 / 8)).toMatrix := by
  refine ⟨viscous_sound, one_pos, by simp [toMatrix_zero], viscous_yields, ?_, ?_⟩
  · rw [mises_shearBy, abs_of_pos (by norm_num [viscous])]
    have := sqrt_three.2
    norm_num [viscous]
    linarith
  · ext i j
    fin_cases i <;> fin_cases j <;> simp [M9.toMatrix, shearBy]

/-- **C156**, the yield surface: a step that is not elastic leaves the flow stress of some plastic
increment `x` below one: at its rate, and at the plastic strain it leads to. -/
theorem C156_surface {P : Const} (hP : P.Sound) {yield dt eqps : ℝ} (hy : 2 / 10 ^ 20 ≤ yield) (hdt : 0 < dt)
    (he : 0 ≤ eqps) {D sigma : M9} {o : PlasticOut} (h : point P yield dt D sigma eqps = .ok o)
    (hne : o.stress.toMatrix ≠ elastic P dt D sigma) :
    ∃ x, 0 < x ∧ x < 1 ∧
      vonMises o.stress.toMatrix =
        P.flowStress yield (Real.sqrt (2 / 3) * x / dt) (eqps + Real.sqrt (2 / 3) * x) ∧
      vonMises o.stress.toMatrix < vonMises (elastic P dt D sigma) ∧ yield ≤ vonMises (elastic P dt D sigma) := by
  have hy0 : 0 < yield := lt_of_lt_of_le (by positivity) hy
  have hst : ¬ Stays P dt D sigma eqps o := by
    rintro rfl
    exact hne (trial_eq _ _ _ _ _)
  obtain ⟨o', ho, hc⟩ := point_eq (yield := yield) hP hdt he D sigma
  rw [h] at ho
  cases ho
  rcases hc with hc | ⟨h0, r, -, hr0, hr1, hc | ⟨ht, hc⟩⟩
  · exact absurd hc.2 hst
  · exact absurd hc.2 hst
  · have e : (trialStress P.bulk P.shear dt D sigma).toMatrix = elastic P dt D sigma := trial_eq _ _ _ _ _
    have hY : 0 ≤ P.target yield dt eqps r.value :=
      flowStress_nonneg hP hy0.le (by positivity) (by positivity)
    have am := plasticOut_mises P.shear (P.target yield dt eqps r.value) hY (devStrain dt D)
      (trialStress P.bulk P.shear dt D sigma) sigma eqps
    rw [ratio_eq _ (by rw [e]; exact Return.norm_floor (hy.trans h0)), mul_one, ← hc] at am
    exact ⟨r.value, hr0, hr1, am, by rw [am]; exact ht, h0⟩

end Verif.Needleman
