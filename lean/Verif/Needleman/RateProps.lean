import Verif.Needleman.RootProps

/-! C158 (the recorded plastic strain), C159 (slow deformations). -/

noncomputable section

namespace Verif.Needleman

open Verif Verif.Neigh Verif.Mech Verif.Tensor Verif.Correspondence Matrix
open scoped Classical

/-! ### C158: the recorded plastic strain -/

/-- **C158**, what holds: the recorded increment is neither negative nor larger than the size of the plastic
strain increment; and from a state without deviatoric stress it is at most half of it. -/
theorem C158_bounds_partial {P : Const} (hP : P.Sound) {yield dt eqps : ℝ} (hy : 0 < yield) (hdt : 0 < dt)
    (he : 0 ≤ eqps) {D sigma : M9} {o : PlasticOut} (h : point P yield dt D sigma eqps = .ok o) :
    0 ≤ o.eqps - eqps ∧
    o.eqps - eqps ≤ Real.sqrt (2 / 3) *
      norm9 (plasticStrain P.shear (dt • D.toMatrix) sigma.toMatrix o.stress.toMatrix) ∧
    (dev sigma.toMatrix = 0 → o.eqps - eqps ≤ 1 / 2 * (Real.sqrt (2 / 3) *
      norm9 (plasticStrain P.shear (dt • D.toMatrix) sigma.toMatrix o.stress.toMatrix))) := by
  have hnn : ∀ m : Mat, 0 ≤ Real.sqrt (2 / 3) * norm9 m := fun m =>
    mul_nonneg (Real.sqrt_nonneg _) (norm9_nonneg _)
  have hmono : 0 ≤ o.eqps - eqps := by
    obtain ⟨o', ho', -, -, -, -, -, h6, -⟩ := C156_step hP hy hdt he D sigma
    rw [h] at ho'
    cases ho'
    linarith
  refine ⟨hmono, ?_⟩
  have hst : Stays P dt D sigma eqps o → o.eqps - eqps = 0 := by
    rintro rfl
    exact sub_self _
  obtain ⟨o', ho, hc⟩ := point_eq (yield := yield) hP hdt he D sigma
  rw [h] at ho
  cases ho
  rcases hc with hc | ⟨h0, r, -, hr0, hr1, hc | ⟨ht, hc⟩⟩
  · rw [hst hc.2]
    exact ⟨hnn _, fun _ => mul_nonneg (by norm_num) (hnn _)⟩
  · rw [hst hc.2]
    exact ⟨hnn _, fun _ => mul_nonneg (by norm_num) (hnn _)⟩
  · have hY : 0 ≤ P.target yield dt eqps r.value := flowStress_nonneg hP hy.le (by positivity) (by positivity)
    have hi : o.eqps - eqps = eqpsIncrement P.shear (devStrain dt D)
        (devStress (trialStress P.bulk P.shear dt D sigma))
        (returned (devStress (trialStress P.bulk P.shear dt D sigma)) (P.target yield dt eqps r.value))
          (devStress sigma) := by
      rw [hc]
      unfold plasticOut
      ring
    have hle := eqpsIncrement_le P.shear (devStrain dt D)
      (devStress (trialStress P.bulk P.shear dt D sigma))
      (returned (devStress (trialStress P.bulk P.shear dt D sigma)) (P.target yield dt eqps r.value))
      (devStress sigma)
    rw [plasticIncrement_eq P.shear (P.target yield dt eqps r.value) dt D
      (trialStress P.bulk P.shear dt D sigma) sigma eqps, ← hc] at hle
    have r1 := returned_ratio (trialStress P.bulk P.shear dt D sigma) (P.target yield dt eqps r.value) hY
      (by rw [misesOf_dev, trial_eq]; exact ht)
    have r2 := norm_ratio (devStress sigma)
    rw [hi]
    refine ⟨hle.trans ?_, fun hz => hle.trans ?_⟩
    · refine mul_le_of_le_one_right (hnn _) (by linarith)
    · rw [devStress_eq sigma, hz, norm9_zero, zero_div, add_zero, mul_comm]
      refine mul_le_mul_of_nonneg_right (by linarith) (hnn _)

example : ∃ o, point viscous 1 1 (shearBy (3 / 8)) zero 0 = .ok o ∧ dev (zero : M9).toMatrix = 0 := by
  obtain ⟨o, ho, -⟩ := C156_step viscous_sound one_pos one_pos (le_refl 0) (shearBy (3 / 8)) zero
  exact ⟨o, ho, by rw [toMatrix_zero, dev_zero]⟩

/-- **C158 is false of the code**: after a step from rest the stress is not the flow stress at the recorded
plastic strain and its rate. -/
theorem C158_not_consistent : ¬ Consistent := by
  intro hc
  obtain ⟨o, v, ho, hv0, hv1, hm, hlt⟩ := example_stress
  have hne : o.stress.toMatrix ≠ elastic viscous 1 (shearBy (3 / 8)) zero := fun he => by
    rw [he] at hlt
    exact lt_irrefl _ hlt
  have hc := hc viscous 1 1 (shearBy (3 / 8)) zero 0 o viscous_sound one_pos one_pos (le_refl 0) ho hne
  obtain ⟨b0, -, b1⟩ := C158_bounds_partial viscous_sound one_pos one_pos (le_refl 0) ho
  have hz : dev (zero : M9).toMatrix = 0 := by rw [toMatrix_zero, dev_zero]
  have b1 := b1 hz
  -- the plastic strain is not larger than the strain
  have hp : norm9 (plasticStrain viscous.shear ((1 : ℝ) • (shearBy (3 / 8)).toMatrix) (zero : M9).toMatrix
      o.stress.toMatrix) ≤ Real.sqrt 2 * (3 / 8) := by
    obtain ⟨o', ho', -, -, ⟨c, c0, c1, hdev⟩, -⟩ := C156_step viscous_sound one_pos one_pos (le_refl 0)
      (shearBy (3 / 8)) zero
    rw [ho] at ho'
    cases ho'
    unfold plasticStrain
    rw [hdev, hz, sub_zero, elastic_shearBy, dev_shearBy, dev_shearBy]
    have e : (1 : ℝ) • (shearBy (3 / 8)).toMatrix -
        (1 / (2 * viscous.shear)) • c • (2 * viscous.shear * 1) • (shearBy (3 / 8)).toMatrix =
        (1 - c) • (shearBy (3 / 8)).toMatrix := by
      show _ - (1 / (2 * (1 : ℝ))) • c • (2 * (1 : ℝ) * 1) • _ = _
      module
    rw [e, norm_shearBy, abs_of_nonneg (by nlinarith)]
    have := sqrt_two.1
    nlinarith
  rw [viscous_flow, hm] at hc
  have hq := sqrt_third.1
  have hs := sqrt_two.2
  have hd : o.eqps ≤ Real.sqrt (2 / 3) * (267 / 1000) := by
    have h1 := mul_le_mul_of_nonneg_left hp hq.le
    have h2 : Real.sqrt 2 * (3 / 8) ≤ 534 / 1000 := by linarith
    have h3 := mul_le_mul_of_nonneg_left h2 hq.le
    linarith
  have hlow : 32 / 100 ≤ v / (1 + 2 / 3 * v ^ 2) := by
    rw [le_div_iff₀ (by positivity)]
    nlinarith
  have hflow : (o.eqps - 0) / 1 / (1 + o.eqps ^ 2) ≤ Real.sqrt (2 / 3) * (267 / 1000) := by
    rw [sub_zero, div_one]
    rw [sub_zero] at b0
    exact (div_le_self b0 (by nlinarith [sq_nonneg o.eqps])).trans hd
  have h1 := (abs_le.mp hc).2
  generalize v / (1 + 2 / 3 * v ^ 2) = w at *
  have : Real.sqrt (2 / 3) * (32 / 100) ≤ Real.sqrt (2 / 3) * w := mul_le_mul_of_nonneg_left hlow hq.le
  nlinarith

/-! ### C159: slow deformations -/

/-- **C159**, what holds below the yield stress: the stress is elastic, so it changes with the deformation as
Hooke's law says. -/
theorem C159_elastic_partial {P : Const} (hP : P.Sound) {yield dt eqps : ℝ} (hy : 0 < yield) (hdt : 0 < dt)
    (he : 0 ≤ eqps) {D D' sigma : M9} {o o' : PlasticOut} (h : point P yield dt D sigma eqps = .ok o)
    (h' : point P yield dt D' sigma eqps = .ok o') (hlt : vonMises (elastic P dt D sigma) < yield)
    (hlt' : vonMises (elastic P dt D' sigma) < yield) :
    o'.stress.toMatrix - o.stress.toMatrix = hooke P.bulk P.shear (dt • (D'.toMatrix - D.toMatrix)) ∧
    o'.eqps = o.eqps := by
  obtain ⟨o1, ho1, -, -, -, -, h5, -⟩ := C156_step hP hy hdt he D sigma
  obtain ⟨o2, ho2, -, -, -, -, h5', -⟩ := C156_step hP hy hdt he D' sigma
  rw [h] at ho1
  rw [h'] at ho2
  cases ho1
  cases ho2
  obtain ⟨e1, e2⟩ := h5 hlt
  obtain ⟨e3, e4⟩ := h5' hlt'
  refine ⟨?_, by rw [e2, e4]⟩
  rw [e1, e3]
  unfold elastic hooke
  rw [smul_sub, trace_sub]
  module

example : viscous.Sound ∧ vonMises (elastic viscous 1 (shearBy (1 / 8)) zero) < 1 ∧
    (∃ o, point viscous 1 1 (shearBy (1 / 8)) zero 0 = .ok o) := by
  refine ⟨viscous_sound, ?_, ?_⟩
  · rw [mises_shearBy, abs_of_pos (by norm_num [viscous])]
    have := sqrt_three.2
    norm_num [viscous]
    linarith
  · obtain ⟨o, ho, -⟩ := C156_step viscous_sound one_pos one_pos (le_refl 0) (shearBy (1 / 8)) zero
    exact ⟨o, ho⟩

/-- **C159**, once the yield stress is reached: whatever bound `B` the flow stress keeps at the rates of the
step, the stress falls to it, even if it lies far below the yield stress that had to be reached. -/
theorem C159_drop {P : Const} (hP : P.Sound) {yield dt eqps B : ℝ} (hy : 0 < yield) (hdt : 0 < dt)
    (he : 0 ≤ eqps) {D sigma : M9} {o : PlasticOut} (h : point P yield dt D sigma eqps = .ok o)
    (hE : yield ≤ vonMises (elastic P dt D sigma)) (hB : B < vonMises (elastic P dt D sigma))
    (hflow : ∀ x, 0 < x → x < 1 →
      P.flowStress yield (Real.sqrt (2 / 3) * x / dt) (eqps + Real.sqrt (2 / 3) * x) ≤ B) :
    vonMises o.stress.toMatrix ≤ B := by
  obtain ⟨o', ho, hc⟩ := point_eq (yield := yield) hP hdt he D sigma
  rw [h] at ho
  cases ho
  rcases hc with hc | ⟨h0, r, -, hr0, hr1, hc | ⟨ht, hc⟩⟩
  · exact absurd hc.1 (not_lt.mpr hE)
  · exact absurd (hc.1.trans (hflow r.value hr0 hr1)) (not_le.mpr hB)
  · have hY : 0 ≤ P.target yield dt eqps r.value := flowStress_nonneg hP hy.le (by positivity) (by positivity)
    rw [hc, plasticOut_mises P.shear _ hY]
    have := mul_le_mul_of_nonneg_left (ratio_le (trialStress P.bulk P.shear dt D sigma)) hY
    rw [mul_one] at this
    exact this.trans (hflow r.value hr0 hr1)

/-- A slow deformation that just reaches the yield stress. -/
def slow : ℝ := 1 / (200 * Real.sqrt 3)

theorem slow_pos : 0 < slow := by unfold slow; positivity

theorem slow_mises (c : ℝ) (hc : 0 ≤ c) : vonMises (elastic viscous 100 (shearBy (c * slow)) zero) = c := by
  rw [mises_shearBy]
  have hp : 0 < Real.sqrt 3 := by positivity
  rw [abs_of_nonneg (by have := slow_pos; simp only [viscous]; positivity)]
  unfold slow
  simp only [viscous]
  field_simp
  norm_num
  ring

theorem slow_flow : ∀ x : ℝ, 0 < x → x < 1 →
    viscous.flowStress 1 (Real.sqrt (2 / 3) * x / 100) (0 + Real.sqrt (2 / 3) * x) ≤ 1 / 100 := by
  intro x h0 h1
  rw [viscous_flow]
  have hq := sqrt_third
  refine (div_le_self (by positivity) (by nlinarith [sq_nonneg (0 + Real.sqrt (2 / 3) * x)])).trans ?_
  rw [div_le_div_iff_of_pos_right (by norm_num)]
  nlinarith

example : ∃ o, point viscous 1 100 (shearBy (1 * slow)) zero 0 = .ok o ∧
    1 ≤ vonMises (elastic viscous 100 (shearBy (1 * slow)) zero) ∧
    (1 : ℝ) / 100 < vonMises (elastic viscous 100 (shearBy (1 * slow)) zero) ∧
    (∀ x : ℝ, 0 < x → x < 1 →
      viscous.flowStress 1 (Real.sqrt (2 / 3) * x / 100) (0 + Real.sqrt (2 / 3) * x) ≤ 1 / 100) := by
  obtain ⟨o, ho, -⟩ := C156_step viscous_sound one_pos (show (0 : ℝ) < 100 by norm_num) (le_refl 0)
    (shearBy (1 * slow)) zero
  refine ⟨o, ho, ?_, ?_, slow_flow⟩ <;> rw [slow_mises 1 zero_le_one]
  norm_num

theorem norm_sub_ge (a b : Mat) : norm9 b - norm9 a ≤ norm9 (b - a) := by
  have h : norm9 b ^ 2 ≤ (norm9 a + norm9 (b - a)) ^ 2 := by
    have e : b = a + (b - a) := by abel
    have h1 : ip b b = ip a a + 2 * ip a (b - a) + ip (b - a) (b - a) := by
      conv_lhs => rw [e]
      rw [ip_add_left, ip_add_right, ip_add_right, ip_comm (b - a) a]
      ring
    rw [norm9_sq, h1, add_sq, norm9_sq, norm9_sq]
    have := ip_le a (b - a)
    linarith
  have := abs_le_of_sq_le_sq h (add_nonneg (norm9_nonneg _) (norm9_nonneg _))
  linarith [le_abs_self (norm9 b)]

theorem norm_dev_le (a : Mat) : norm9 (dev a) ≤ norm9 a := by
  have h : norm9 (dev a) ^ 2 ≤ norm9 a ^ 2 := by
    have e : a = dev a + mean a • (1 : Mat) := by
      unfold dev
      abel
    have h1 : ip a a = ip (dev a) (dev a) + mean a ^ 2 * 3 := by
      conv_lhs => rw [e]
      rw [ip_add_left, ip_add_right, ip_add_right, ip_smul_right, ip_smul_left, ip_smul_left, ip_smul_right,
        ip_comm (dev a) 1, Return.ip_one, Return.ip_one, mean_dev, mean_one]
      ring
    rw [norm9_sq, norm9_sq, h1]
    nlinarith [sq_nonneg (mean a)]
  have := abs_le_of_sq_le_sq h (norm9_nonneg _)
  linarith [le_abs_self (norm9 (dev a))]

/-- **C159 is false of the code**: in a slow deformation the stress rises elastically up to the yield stress
and falls to a hundredth of it when the yield stress is reached. -/
theorem C159_not_continuous : ¬ StressContinuous := by
  intro hc
  have h100 : (0 : ℝ) < 100 := by norm_num
  obtain ⟨o, ho, -⟩ := C156_step viscous_sound one_pos h100 (le_refl 0) (shearBy (1 * slow)) zero
  have hdrop := C159_drop viscous_sound one_pos h100 (le_refl 0) ho (by rw [slow_mises 1 zero_le_one])
    (by rw [slow_mises 1 zero_le_one]; norm_num) slow_flow
  obtain ⟨δ, hδ, hc⟩ := hc viscous 1 100 (shearBy (1 * slow)) zero 0 o viscous_sound one_pos h100 (le_refl 0) ho
    (1 / 4) (by norm_num)
  -- a slightly smaller deformation
  obtain ⟨t, ht0, ht1, htδ⟩ : ∃ t : ℝ, 0 < t ∧ t ≤ 1 / 2 ∧ t * (Real.sqrt 2 * slow) < δ := by
    have hp : 0 < Real.sqrt 2 * slow := mul_pos (by positivity) slow_pos
    refine ⟨min (1 / 2) (δ / (2 * (Real.sqrt 2 * slow))), lt_min (by norm_num) (by positivity), min_le_left _ _, ?_⟩
    have := mul_le_mul_of_nonneg_right (min_le_right (1 / 2) (δ / (2 * (Real.sqrt 2 * slow)))) hp.le
    have e : δ / (2 * (Real.sqrt 2 * slow)) * (Real.sqrt 2 * slow) = δ / 2 := by
      generalize Real.sqrt 2 * slow = w at hp
      field_simp
    linarith
  obtain ⟨o', ho', -, -, -, -, h5, -⟩ := C156_step viscous_sound one_pos h100 (le_refl 0)
    (shearBy ((1 - t) * slow)) zero
  have hv := slow_mises (1 - t) (by linarith)
  obtain ⟨he, -⟩ := h5 (by rw [hv]; linarith)
  have hclose : norm9 ((shearBy ((1 - t) * slow)).toMatrix - (shearBy (1 * slow)).toMatrix) < δ := by
    have e : (shearBy ((1 - t) * slow)).toMatrix - (shearBy (1 * slow)).toMatrix = (-t) • (shearBy slow).toMatrix := by
      ext i j
      fin_cases i <;> fin_cases j <;> simp [M9.toMatrix, shearBy] <;> ring
    rw [e, norm_shearBy, abs_mul, abs_neg, abs_of_pos ht0, abs_of_pos slow_pos]
    linarith
  have hlt := hc _ o' hclose ho'
  have h1 := norm_sub_ge (dev o.stress.toMatrix) (dev o'.stress.toMatrix)
  have e : dev o'.stress.toMatrix - dev o.stress.toMatrix = dev (o'.stress.toMatrix - o.stress.toMatrix) := by
    rw [sub_eq_add_neg, sub_eq_add_neg, dev_add, ← neg_one_smul ℝ (o.stress.toMatrix), dev_smul, neg_one_smul]
  rw [e] at h1
  have h2 := norm_dev_le (o'.stress.toMatrix - o.stress.toMatrix)
  have h3 : norm9 (dev o'.stress.toMatrix) = Real.sqrt (2 / 3) * (1 - t) := by
    rw [← hv, ← he]
    unfold vonMises
    rw [← mul_assoc, mul_comm (Real.sqrt (2 / 3)), sqrt_prod, one_mul]
  have h4 : norm9 (dev o.stress.toMatrix) = Real.sqrt (2 / 3) * vonMises o.stress.toMatrix := by
    unfold vonMises
    rw [← mul_assoc, mul_comm (Real.sqrt (2 / 3)), sqrt_prod, one_mul]
  have hq : 8 / 10 ≤ Real.sqrt (2 / 3) := Real.le_sqrt_of_sq_le (by norm_num)
  rw [h3, h4] at h1
  have hvn : 0 ≤ vonMises o.stress.toMatrix := mul_nonneg (Real.sqrt_nonneg _) (norm9_nonneg _)
  have h5 : Real.sqrt (2 / 3) * (1 / 2 - 1 / 100) ≤ Real.sqrt (2 / 3) * ((1 - t) - vonMises o.stress.toMatrix) :=
    mul_le_mul_of_nonneg_left (by linarith) (by linarith)
  have h6 : 8 / 10 * (1 / 2 - 1 / 100) ≤ Real.sqrt (2 / 3) * (1 / 2 - 1 / 100) :=
    mul_le_mul_of_nonneg_right hq (by norm_num)
  linarith

end Verif.Needleman
