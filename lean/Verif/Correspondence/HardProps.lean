import Verif.Correspondence.StressProps

/-!
# Correspondence materials: linear isotropic hardening (C84)
-/

noncomputable section

namespace Verif.Correspondence

open Verif Verif.Neigh Verif.Mech Verif.Tensor Matrix
open scoped Classical

/-- The stress stays within the yield surface that belongs to the equivalent plastic strain. -/
def HardeningConsistent : Prop :=
  ∀ (bulk shear hard yield dt : ℝ) (D sigma : M9) (eqps : ℝ) (o : PlasticOut), 0 < shear → 0 ≤ hard →
    0 < yield → 0 ≤ eqps → vonMises sigma.toMatrix ≤ yield + hard * eqps →
    hardeningPoint bulk shear hard yield dt D sigma eqps = .ok o →
    vonMises o.stress.toMatrix ≤ yield + hard * o.eqps

/-- The plastic multiplier of a step whose trial stress reaches the yield stress is not negative. -/
theorem deltaLambda_nonneg (bulk shear hard yield dt : ℝ) (hs : 0 < shear) (hh : 0 ≤ hard) (D sigma : M9)
    (hl : 1 / 10 ^ 20 ≤ norm9 (dev (trialStress bulk shear dt D sigma).toMatrix))
    (hy : yield ≤ misesOf (devStress (trialStress bulk shear dt D sigma))) :
    0 ≤ deltaLambda shear hard yield (devStrain dt D) (devStress (trialStress bulk shear dt D sigma))
      (devStress sigma) := by
  have hpos : 0 < norm9 (dev (trialStress bulk shear dt D sigma).toMatrix) :=
    lt_of_lt_of_le (by positivity) hl
  unfold deltaLambda
  refine div_nonneg ?_ (by linarith)
  have hmag : magnitude (devStress (trialStress bulk shear dt D sigma)) =
      norm9 (dev (trialStress bulk shear dt D sigma).toMatrix) := by
    rw [magnitude_eq, devStress_eq, max_eq_right hl]
  have hip : (2 * shear) * contract (devStress (trialStress bulk shear dt D sigma)) (devStrain dt D) =
      norm9 (dev (trialStress bulk shear dt D sigma).toMatrix) ^ 2 -
        ip (dev (trialStress bulk shear dt D sigma).toMatrix) (dev sigma.toMatrix) := by
    have e : dev (trialStress bulk shear dt D sigma).toMatrix =
        dev sigma.toMatrix + (2 * shear) • dev (dt • D.toMatrix) := by
      rw [trial_eq, dev_add, dev_hooke]
    rw [contract_eq, devStress_eq, devStrain_eq, norm9_sq, ← ip_smul_right]
    have e2 : (2 * shear) • dev (dt • D.toMatrix) =
        dev (trialStress bulk shear dt D sigma).toMatrix + (-1 : ℝ) • dev sigma.toMatrix := by
      rw [e]; module
    rw [e2, ip_add_right, ip_smul_right]
    ring
  have hcs := ip_le (dev (trialStress bulk shear dt D sigma).toMatrix) (dev sigma.toMatrix)
  have hsn : Real.sqrt (contract (devStress sigma) (devStress sigma)) = norm9 (dev sigma.toMatrix) := by
    rw [contract_eq, devStress_eq]
    rfl
  rw [hmag, hsn]
  have h6 : Real.sqrt 6 * yield ≤ 3 * norm9 (dev (trialStress bulk shear dt D sigma).toMatrix) := by
    rw [misesOf_eq, devStress_eq] at hy
    have h1 := mul_le_mul_of_nonneg_left hy (Real.sqrt_nonneg 6)
    have h2 : Real.sqrt 6 * Real.sqrt (3 / 2) = 3 := by
      rw [← Real.sqrt_mul (by norm_num)]
      rw [show (6 : ℝ) * (3 / 2) = 3 ^ 2 by norm_num, Real.sqrt_sq (by norm_num)]
    rw [← mul_assoc, h2] at h1
    exact h1
  have h3 : 6 * (contract (devStress (trialStress bulk shear dt D sigma)) (devStrain dt D) /
      norm9 (dev (trialStress bulk shear dt D sigma).toMatrix)) * shear =
      3 * (norm9 (dev (trialStress bulk shear dt D sigma).toMatrix) -
        ip (dev (trialStress bulk shear dt D sigma).toMatrix) (dev sigma.toMatrix) /
          norm9 (dev (trialStress bulk shear dt D sigma).toMatrix)) := by
    field_simp
    linear_combination 3 * hip
  rw [h3]
  have h4 : ip (dev (trialStress bulk shear dt D sigma).toMatrix) (dev sigma.toMatrix) /
      norm9 (dev (trialStress bulk shear dt D sigma).toMatrix) ≤ norm9 (dev sigma.toMatrix) := by
    rw [div_le_iff₀ hpos]
    linarith
  linarith

/-- **C84**, what holds of every step: recorded von Mises stress, mean stress and direction of the
deviatoric stress are right, a step whose elastic stress stays below the initial yield stress is elastic,
the equivalent plastic strain does not decrease, and the return does not go below the yield surface of
the step before. -/
theorem C84_step_partial (bulk shear hard yield dt : ℝ) (D sigma : M9) (eqps : ℝ) (o : PlasticOut)
    (hs : 0 < shear) (hh : 0 ≤ hard) (hy : 0 ≤ yield) (he : 0 ≤ eqps)
    (hl : 1 / 10 ^ 20 ≤ norm9 (dev (sigma.toMatrix + hooke bulk shear (dt • D.toMatrix))))
    (h : hardeningPoint bulk shear hard yield dt D sigma eqps = .ok o) :
    o.mises = vonMises o.stress.toMatrix ∧
    mean o.stress.toMatrix = mean sigma.toMatrix + bulk * (dt • D.toMatrix).trace ∧
    (∃ c : ℝ, 0 ≤ c ∧ c ≤ 1 ∧
      dev o.stress.toMatrix = c • dev (sigma.toMatrix + hooke bulk shear (dt • D.toMatrix))) ∧
    (vonMises (sigma.toMatrix + hooke bulk shear (dt • D.toMatrix)) < yield →
      o.stress.toMatrix = sigma.toMatrix + hooke bulk shear (dt • D.toMatrix) ∧ o.eqps = eqps) ∧
    eqps ≤ o.eqps ∧
    (o.stress.toMatrix ≠ sigma.toMatrix + hooke bulk shear (dt • D.toMatrix) →
      yield + hard * eqps ≤ vonMises o.stress.toMatrix) := by
  have hm : mean (trialStress bulk shear dt D sigma).toMatrix =
      mean sigma.toMatrix + bulk * (dt • D.toMatrix).trace := by
    rw [trial_eq, mean_add, hooke_eq, mean_add, mean_smul, mean_smul, mean_one, mean_dev]
    ring
  rw [← trial_eq] at hl ⊢
  have hel : misesOf (devStress (trialStress bulk shear dt D sigma)) =
      vonMises (trialStress bulk shear dt D sigma).toMatrix ∧
      mean (trialStress bulk shear dt D sigma).toMatrix =
        mean sigma.toMatrix + bulk * (dt • D.toMatrix).trace ∧
      (∃ c : ℝ, 0 ≤ c ∧ c ≤ 1 ∧ dev (trialStress bulk shear dt D sigma).toMatrix =
        c • dev (trialStress bulk shear dt D sigma).toMatrix) ∧
      (vonMises (trialStress bulk shear dt D sigma).toMatrix < yield →
        (trialStress bulk shear dt D sigma).toMatrix = (trialStress bulk shear dt D sigma).toMatrix ∧
          eqps = eqps) ∧ eqps ≤ eqps ∧
      ((trialStress bulk shear dt D sigma).toMatrix ≠ (trialStress bulk shear dt D sigma).toMatrix →
        yield + hard * eqps ≤ vonMises (trialStress bulk shear dt D sigma).toMatrix) :=
    ⟨misesOf_dev _, hm, ⟨1, zero_le_one, le_refl _, (one_smul _ _).symm⟩, fun _ => ⟨rfl, rfl⟩,
      le_refl _, fun hne => absurd rfl hne⟩
  unfold hardeningPoint at h
  simp only at h
  split at h
  · cases h; exact hel
  · rename_i hge
    split at h
    · exact absurd h (by simp)
    · split at h
      · rename_i hlt
        split at h
        · exact absurd h (by simp)
        · have hdl := deltaLambda_nonneg bulk shear hard yield dt hs hh D sigma hl (not_lt.mp hge)
          cases h
          obtain ⟨p1, p2, p3⟩ := plasticOut_stress shear (yieldValue shear hard yield eqps
            (devStrain dt D) (devStress (trialStress bulk shear dt D sigma)) (devStress sigma))
            (devStrain dt D) (trialStress bulk shear dt D sigma) sigma eqps
          have hbase : yield + hard * eqps ≤ yieldValue shear hard yield eqps (devStrain dt D)
              (devStress (trialStress bulk shear dt D sigma)) (devStress sigma) := by
            unfold yieldValue
            have := mul_nonneg hh (mul_nonneg (Real.sqrt_nonneg (2 / 3 : ℝ)) hdl)
            linarith
          have hy0 : 0 ≤ yieldValue shear hard yield eqps (devStrain dt D)
              (devStress (trialStress bulk shear dt D sigma)) (devStress sigma) :=
            le_trans (add_nonneg hy (mul_nonneg hh he)) hbase
          refine ⟨p3, p2.trans hm, ⟨_, ?_, ?_, p1⟩, ?_, ?_, fun _ => ?_⟩
          · exact div_nonneg (mul_nonneg (Real.sqrt_nonneg _) hy0) (magnitude_pos _).le
          · unfold factor
            rw [div_le_one (magnitude_pos _)]
            rw [misesOf_eq] at hlt
            have h1 := mul_le_mul_of_nonneg_left hlt.le (Real.sqrt_nonneg (2 / 3 : ℝ))
            rw [← mul_assoc (Real.sqrt (2 / 3)) (Real.sqrt (3 / 2)),
              mul_comm (Real.sqrt (2 / 3)) (Real.sqrt (3 / 2)), sqrt_prod, one_mul] at h1
            exact h1.trans ((div_le_one (magnitude_pos _)).mp (norm_ratio _))
          · intro hlt'
            rw [misesOf_dev] at hge
            exact absurd hlt' hge
          · exact le_add_of_nonneg_right (le_max_left _ _)
          · rw [plasticOut_mises shear _ hy0, ratio_eq _ hl, mul_one]
            exact hbase
      · cases h; exact hel

/-- **C84**, without hardening: the update is that of the perfectly plastic material. -/
theorem C84_perfect_partial (bulk shear yield dt : ℝ) (D sigma : M9) (eqps : ℝ) (hs : shear ≠ 0) :
    hardeningPoint bulk shear 0 yield dt D sigma eqps = perfectPoint bulk shear yield dt D sigma eqps := by
  have hv : yieldValue shear 0 yield eqps (devStrain dt D)
      (devStress (trialStress bulk shear dt D sigma)) (devStress sigma) = yield := by
    unfold yieldValue; ring
  unfold hardeningPoint perfectPoint
  simp only
  rw [hv]
  by_cases h1 : misesOf (devStress (trialStress bulk shear dt D sigma)) < yield
  · rw [if_pos h1, if_neg (not_lt.mpr h1.le)]
  · rw [if_neg h1, if_neg (by simpa using hs)]

/-- **C84**, the first plastic step of a virgin point: the von Mises stress is what linear hardening gives
for the plastic strain of the step, of which at most half is recorded. -/
theorem C84_virgin_partial (bulk shear hard yield dt : ℝ) (D sigma : M9) (o : PlasticOut)
    (hs : 0 < shear) (hh : 0 ≤ hard) (hy : 0 ≤ yield) (h0 : dev sigma.toMatrix = 0)
    (hl : 1 / 10 ^ 20 ≤ norm9 (dev (sigma.toMatrix + hooke bulk shear (dt • D.toMatrix))))
    (hp : yield < vonMises (sigma.toMatrix + hooke bulk shear (dt • D.toMatrix)))
    (h : hardeningPoint bulk shear hard yield dt D sigma 0 = .ok o) :
    vonMises o.stress.toMatrix = yield + hard * (Real.sqrt (2 / 3) *
      norm9 (plasticStrain shear (dt • D.toMatrix) sigma.toMatrix o.stress.toMatrix)) ∧
    o.eqps ≤ 1 / 2 * (Real.sqrt (2 / 3) *
      norm9 (plasticStrain shear (dt • D.toMatrix) sigma.toMatrix o.stress.toMatrix)) ∧
    0 < norm9 (plasticStrain shear (dt • D.toMatrix) sigma.toMatrix o.stress.toMatrix) := by
  rw [← trial_eq] at hl hp
  have hpos : 0 < norm9 (dev (trialStress bulk shear dt D sigma).toMatrix) :=
    lt_of_lt_of_le (by positivity) hl
  have hmag : magnitude (devStress (trialStress bulk shear dt D sigma)) =
      norm9 (dev (trialStress bulk shear dt D sigma).toMatrix) := by
    rw [magnitude_eq, devStress_eq, max_eq_right hl]
  rw [← misesOf_dev] at hp
  have hdl := deltaLambda_nonneg bulk shear hard yield dt hs hh D sigma hl hp.le
  -- the multiplier
  have hip : (2 * shear) * contract (devStress (trialStress bulk shear dt D sigma)) (devStrain dt D) =
      norm9 (dev (trialStress bulk shear dt D sigma).toMatrix) ^ 2 := by
    have e : dev (trialStress bulk shear dt D sigma).toMatrix =
        (2 * shear) • dev (dt • D.toMatrix) := by
      rw [trial_eq, dev_add, dev_hooke, h0, zero_add]
    rw [contract_eq, devStress_eq, devStrain_eq, norm9_sq, ← ip_smul_right, ← e]
  have hsn : Real.sqrt (contract (devStress sigma) (devStress sigma)) = 0 := by
    rw [contract_eq, devStress_eq, h0]
    simp [ip]
  have s23 : Real.sqrt (2 / 3) * Real.sqrt (2 / 3) = 2 / 3 := Real.mul_self_sqrt (by norm_num)
  have s6 : Real.sqrt 6 = 3 * Real.sqrt (2 / 3) := by
    rw [show (6 : ℝ) = 3 ^ 2 * (2 / 3) by norm_num, Real.sqrt_mul (by norm_num),
      Real.sqrt_sq (by norm_num)]
  have hd : (2 * (hard + 3 * shear)) * deltaLambda shear hard yield (devStrain dt D)
      (devStress (trialStress bulk shear dt D sigma)) (devStress sigma) =
      3 * norm9 (dev (trialStress bulk shear dt D sigma).toMatrix) - 3 * Real.sqrt (2 / 3) * yield := by
    unfold deltaLambda
    rw [hsn, hmag, s6]
    have h3 : 0 < hard + 3 * shear := by linarith
    field_simp
    linear_combination 3 * hip
  generalize hL : deltaLambda shear hard yield (devStrain dt D)
      (devStress (trialStress bulk shear dt D sigma)) (devStress sigma) = L at hd hdl
  have hyv : yieldValue shear hard yield 0 (devStrain dt D)
      (devStress (trialStress bulk shear dt D sigma)) (devStress sigma) =
      yield + hard * (Real.sqrt (2 / 3) * L) := by
    unfold yieldValue
    rw [hL, zero_add]
  -- the step is plastic
  have hmis : misesOf (devStress (trialStress bulk shear dt D sigma)) =
      Real.sqrt (3 / 2) * norm9 (dev (trialStress bulk shear dt D sigma).toMatrix) := by
    rw [misesOf_eq, devStress_eq]
  have hS : norm9 (dev (trialStress bulk shear dt D sigma).toMatrix) -
      Real.sqrt (2 / 3) * (yield + hard * (Real.sqrt (2 / 3) * L)) = 2 * shear * L := by
    linear_combination (1 / 3) * -hd - hard * L * s23
  have hLpos : 0 < L := by
    have hx : Real.sqrt (2 / 3) * yield < norm9 (dev (trialStress bulk shear dt D sigma).toMatrix) := by
      rw [hmis] at hp
      have h1 := mul_lt_mul_of_pos_left hp (Real.sqrt_pos.mpr (show (0 : ℝ) < 2 / 3 by norm_num))
      rw [← mul_assoc (Real.sqrt (2 / 3)) (Real.sqrt (3 / 2)),
        mul_comm (Real.sqrt (2 / 3)) (Real.sqrt (3 / 2)), sqrt_prod, one_mul] at h1
      exact h1
    rcases hdl.lt_or_eq with h' | h'
    · exact h'
    · rw [← h'] at hd; linarith
  have hyv0 : 0 ≤ yield + hard * (Real.sqrt (2 / 3) * L) :=
    add_nonneg hy (mul_nonneg hh (mul_nonneg (Real.sqrt_nonneg _) hdl))
  have hlt : yield + hard * (Real.sqrt (2 / 3) * L) <
      misesOf (devStress (trialStress bulk shear dt D sigma)) := by
    have h1 : Real.sqrt (2 / 3) * (yield + hard * (Real.sqrt (2 / 3) * L)) <
        norm9 (dev (trialStress bulk shear dt D sigma).toMatrix) := by
      have := mul_pos (mul_pos two_pos hs) hLpos
      linarith
    have h2 := mul_lt_mul_of_pos_left h1 (Real.sqrt_pos.mpr (show (0 : ℝ) < 3 / 2 by norm_num))
    rw [← mul_assoc, sqrt_prod, one_mul, ← hmis] at h2
    exact h2
  unfold hardeningPoint at h
  simp only at h
  rw [if_neg (not_lt.mpr hp.le), if_neg (by linarith [mul_pos three_pos hs] :
    ¬ 2 * (hard + 3 * shear) = 0), hyv, if_pos hlt, if_neg hs.ne'] at h
  cases h
  have hfac : factor (devStress (trialStress bulk shear dt D sigma))
      (yield + hard * (Real.sqrt (2 / 3) * L)) = 1 - 2 * shear * L /
        norm9 (dev (trialStress bulk shear dt D sigma).toMatrix) := by
    unfold factor
    rw [hmag, ← hS]
    field_simp
    ring
  have hnorm : norm9 (plasticStrain shear (dt • D.toMatrix) sigma.toMatrix
      (plasticOut shear (yield + hard * (Real.sqrt (2 / 3) * L)) (devStrain dt D)
        (trialStress bulk shear dt D sigma) sigma 0).stress.toMatrix) = L := by
    rw [plastic_eq bulk shear _ dt hs.ne', norm9_smul, hfac]
    have e : (1 - (1 - 2 * shear * L / norm9 (dev (trialStress bulk shear dt D sigma).toMatrix))) /
        (2 * shear) = L / norm9 (dev (trialStress bulk shear dt D sigma).toMatrix) := by
      field_simp
      ring
    rw [e, abs_of_nonneg (div_nonneg hdl hpos.le), div_mul_cancel₀ _ hpos.ne']
  refine ⟨?_, ?_, by rw [hnorm]; exact hLpos⟩
  · rw [plasticOut_mises shear _ hyv0, ratio_eq _ hl, mul_one, hnorm]
  · have hle := eqpsIncrement_le shear (devStrain dt D)
      (devStress (trialStress bulk shear dt D sigma))
      (returned (devStress (trialStress bulk shear dt D sigma)) (yield + hard * (Real.sqrt (2 / 3) * L)))
      (devStress sigma)
    rw [plasticIncrement_eq shear _ dt D (trialStress bulk shear dt D sigma) sigma 0] at hle
    have r1 := returned_ratio (trialStress bulk shear dt D sigma) _ hyv0 hlt
    rw [devStress_eq sigma, h0, norm9_zero, zero_div, add_zero] at hle
    have hn : 0 ≤ Real.sqrt (2 / 3) * norm9 (plasticStrain shear (dt • D.toMatrix) sigma.toMatrix
      (plasticOut shear (yield + hard * (Real.sqrt (2 / 3) * L)) (devStrain dt D)
        (trialStress bulk shear dt D sigma) sigma 0).stress.toMatrix) :=
      mul_nonneg (Real.sqrt_nonneg _) (norm9_nonneg _)
    show 0 + _ ≤ _
    rw [zero_add, mul_comm (1 / 2 : ℝ)]
    exact hle.trans (mul_le_mul_of_nonneg_left (by linarith) hn)

theorem shear_hard : ∃ o, hardeningPoint 1 1 1 1 1 shearRate Tensor.zero 0 = .ok o := by
  unfold hardeningPoint
  simp only
  split
  · exact ⟨_, rfl⟩
  · rw [if_neg (by norm_num)]
    split
    · rw [if_neg one_ne_zero]; exact ⟨_, rfl⟩
    · exact ⟨_, rfl⟩

example : ∃ o, hardeningPoint 1 1 1 1 1 shearRate Tensor.zero 0 = .ok o ∧
    dev (Tensor.zero).toMatrix = 0 ∧
    (1 : ℝ) / 10 ^ 20 ≤ norm9 (dev ((Tensor.zero).toMatrix + hooke 1 1 ((1 : ℝ) • shearRate.toMatrix))) ∧
    1 < vonMises ((Tensor.zero).toMatrix + hooke 1 1 ((1 : ℝ) • shearRate.toMatrix)) := by
  obtain ⟨o, h⟩ := shear_hard
  refine ⟨o, h, by rw [toMatrix_zero, dev_zero], ?_, ?_⟩
  · rw [← trial_eq]; exact shear_large
  · rw [← trial_eq, ← misesOf_dev]; exact shear_mises

example : ∃ o, hardeningPoint 1 1 1 1 1 shearRate Tensor.zero 0 = .ok o ∧
    (1 : ℝ) / 10 ^ 20 ≤ norm9 (dev ((Tensor.zero).toMatrix + hooke 1 1 ((1 : ℝ) • shearRate.toMatrix))) := by
  obtain ⟨o, h⟩ := shear_hard
  refine ⟨o, h, ?_⟩
  rw [← trial_eq]; exact shear_large

example : ∃ o, hardeningPoint 1 1 0 1 1 shearRate Tensor.zero 0 = .ok o :=
  ⟨_, (C84_perfect_partial 1 1 1 1 shearRate Tensor.zero 0 one_ne_zero).trans shear_step⟩

/-- **C84 is false of the code**: after the first plastic step of a virgin point the stress lies outside
the yield surface of the recorded equivalent plastic strain. -/
theorem C84_not_consistent : ¬ HardeningConsistent := by
  intro hc
  obtain ⟨o, h⟩ := shear_hard
  have h0 : dev (Tensor.zero).toMatrix = 0 := by rw [toMatrix_zero, dev_zero]
  have hc := hc 1 1 1 1 1 shearRate Tensor.zero 0 o one_pos zero_le_one one_pos (le_refl _)
    (by unfold vonMises; rw [h0, norm9_zero]; norm_num) h
  obtain ⟨h1, h2, h3⟩ := C84_virgin_partial 1 1 1 1 1 shearRate Tensor.zero o one_pos zero_le_one
    zero_le_one h0 (by rw [← trial_eq]; exact shear_large)
    (by rw [← trial_eq, ← misesOf_dev]; exact shear_mises) h
  have := mul_pos (Real.sqrt_pos.mpr (show (0 : ℝ) < 2 / 3 by norm_num)) h3
  rw [h1] at hc
  linarith

/-- **C84**, flaws: the reduced yield stress lies between the fraction the flaw leaves and the yield
stress. -/
theorem C84_flaw_partial (yield : ℝ) (f : Flaw) (x : V3) (y : ℝ) (hy : 0 ≤ yield)
    (hm : 0 ≤ f.magnitude) (h : reducedYield yield (some f) x = .ok y) :
    yield * (1 - f.magnitude) ≤ y ∧ y ≤ yield ∧ (x = f.location → y = yield * (1 - f.magnitude)) := by
  unfold reducedYield at h
  simp only at h
  split at h
  · exact absurd h (by simp)
  · rename_i hsz
    cases h
    have hq : ((-(x 0 - f.location 0)) * (x 0 - f.location 0) -
        (x 1 - f.location 1) * (x 1 - f.location 1) - (x 2 - f.location 2) * (x 2 - f.location 2)) /
        f.size / f.size ≤ 0 := by
      rw [div_div]
      refine div_nonpos_of_nonpos_of_nonneg ?_ (mul_self_nonneg _)
      nlinarith [mul_self_nonneg (x 0 - f.location 0), mul_self_nonneg (x 1 - f.location 1),
        mul_self_nonneg (x 2 - f.location 2)]
    have he1 := Real.exp_le_one_iff.mpr hq
    have he0 := (Real.exp_pos (((-(x 0 - f.location 0)) * (x 0 - f.location 0) -
        (x 1 - f.location 1) * (x 1 - f.location 1) - (x 2 - f.location 2) * (x 2 - f.location 2)) /
        f.size / f.size)).le
    refine ⟨mul_le_mul_of_nonneg_left ?_ hy, mul_le_of_le_one_right hy ?_, ?_⟩
    · have := mul_le_mul_of_nonneg_left he1 hm
      linarith
    · have := mul_nonneg hm he0
      linarith
    · rintro rfl
      simp

example : ∃ y, reducedYield 2 (some ⟨0, 1, 1 / 2⟩) ![0, 0, 1] = .ok y := ⟨_, if_neg one_ne_zero⟩

end Verif.Correspondence
