import Verif.Return.Lemmas

/-! What a return leaves. -/

noncomputable section

namespace Verif.Return

open Verif Verif.Neigh Verif.Mech Verif.Tensor Verif.Correspondence Matrix
open scoped Classical

/-- A plastic step with increment `pl`. -/
structure Plastic (P : Const) (E : Mat) (eqps pl : ℝ) (o : PlasticOut) : Prop where
  reached : P.rule.yieldAt eqps ≤ vonMises E
  nonneg : 0 ≤ pl
  eqps : o.eqps = eqps + pl
  mises : o.mises = vonMises E - 3 * P.shear * pl
  below : P.rule.yieldAt o.eqps ≤ o.mises
  above : o.mises ≤ P.rule.yieldAt o.eqps + 1 / 10 ^ 16 * P.bulk
  norm : 1 / 10 ^ 20 ≤ norm9 (dev E)
  stress : o.stress.toMatrix = E - (Real.sqrt 6 * P.shear * pl / norm9 (dev E)) • dev E

theorem norm_floor {E : Mat} (h : 2 / 10 ^ 20 ≤ vonMises E) : 1 / 10 ^ 20 ≤ norm9 (dev E) := by
  unfold vonMises at h
  have h1 : Real.sqrt (3 / 2) ≤ 2 := by
    rw [Real.sqrt_le_left (by norm_num)]
    norm_num
  have h2 := norm9_nonneg (dev E)
  have h3 := mul_le_mul_of_nonneg_right h1 h2
  have : (2 : ℝ) / 10 ^ 20 = 2 * (1 / 10 ^ 20) := by ring
  linarith

theorem start_inv {P : Const} {vm eqps : ℝ} (hy : P.rule.yieldAt eqps ≤ vm) (flow t : M9) :
    Inv P vm eqps flow t ⟨0, eqps, t, vm - P.rule.yieldAt eqps⟩ where
  plastic := le_refl _
  eqps := by simp
  value := by simp
  nonneg := by simpa using hy
  stress := by simp

theorem return_eq {P : Const} (hP : P.Sound) (dt : ℝ) (D sigma : M9) {eqps : ℝ} (he : 0 ≤ eqps) :
    radialReturn P dt D sigma eqps =
      if vonMises (elastic P dt D sigma) < P.rule.yieldAt eqps then
        .ok ⟨trialStress P.bulk P.shear dt D sigma, vonMises (elastic P dt D sigma), eqps⟩
      else (iterate P (vonMises (elastic P dt D sigma))
          (scaled (devStress (trialStress P.bulk P.shear dt D sigma))
            (1 / magnitude (devStress (trialStress P.bulk P.shear dt D sigma)))) maxIterations
          ⟨0, eqps, trialStress P.bulk P.shear dt D sigma,
            vonMises (elastic P dt D sigma) - P.rule.yieldAt eqps⟩) >>= fun s =>
        .ok ⟨s.stress, vonMises (elastic P dt D sigma) - 3 * P.shear * s.plastic, s.eqps⟩ := by
  unfold radialReturn elastic
  rw [hardened_eq hP.rule he]
  simp only [Outcome.ok_bind, misesOf_dev, trial_eq, sub_neg]

theorem return_cases {P : Const} (hP : P.Sound) (dt : ℝ) (D sigma : M9) {eqps : ℝ} (he : 0 ≤ eqps) :
    radialReturn P dt D sigma eqps = .fail .terminate ∨
    ∃ o, radialReturn P dt D sigma eqps = .ok o ∧
      ((vonMises (elastic P dt D sigma) < P.rule.yieldAt eqps ∧
        o = ⟨trialStress P.bulk P.shear dt D sigma, vonMises (elastic P dt D sigma), eqps⟩) ∨
       ∃ pl, Plastic P (elastic P dt D sigma) eqps pl o) := by
  rw [return_eq hP dt D sigma he]
  split
  · rename_i h
    exact .inr ⟨_, rfl, .inl ⟨h, rfl⟩⟩
  · rename_i h
    push Not at h
    have hnorm : 1 / 10 ^ 20 ≤ norm9 (dev (elastic P dt D sigma)) :=
      norm_floor (hP.floor.trans ((yield_mono hP.rule (le_refl 0) he).trans h))
    rcases iterate_cases hP.rule hP.shear he maxIterations _ (start_inv h _ _) with h' | ⟨r, hr, hI, hv, hp⟩
    · left
      rw [h']
      rfl
    · right
      refine ⟨_, by rw [hr]; rfl, .inr ⟨r.plastic, ?_⟩⟩
      refine ⟨h, hI.plastic, hI.eqps, rfl, ?_, ?_, hnorm, ?_⟩
      · have := hI.nonneg
        rw [hI.value] at this
        show P.rule.yieldAt r.eqps ≤ _
        linarith
      · rw [hI.value] at hv
        unfold tol at hv
        show _ ≤ P.rule.yieldAt r.eqps + _
        linarith
      · show r.stress.toMatrix = _
        rw [hI.stress, toMatrix_scaled, devStress_eq, magnitude_eq, devStress_eq, trial_eq]
        show elastic P dt D sigma - _ • _ • dev (elastic P dt D sigma) = _
        rw [max_eq_right (by exact hnorm), smul_smul, mul_one_div]
        rfl

theorem sqrt_six : Real.sqrt 6 * Real.sqrt (3 / 2) = 3 := by
  rw [← Real.sqrt_mul (by norm_num), show (6 : ℝ) * (3 / 2) = 3 ^ 2 by norm_num, Real.sqrt_sq (by norm_num)]

variable {P : Const} {E : Mat} {eqps pl : ℝ} {o : PlasticOut}

theorem Plastic.norm_pos (h : Plastic P E eqps pl o) : 0 < norm9 (dev E) := lt_of_lt_of_le (by positivity) h.norm

theorem Plastic.dev (h : Plastic P E eqps pl o) :
    dev o.stress.toMatrix = (1 - Real.sqrt 6 * P.shear * pl / norm9 (dev E)) • Correspondence.dev E := by
  rw [h.stress, sub_eq_add_neg, ← neg_smul, dev_add, dev_smul, dev_dev]
  module

theorem Plastic.mean (h : Plastic P E eqps pl o) : mean o.stress.toMatrix = Correspondence.mean E := by
  rw [h.stress, mean_sub, mean_smul, mean_dev]
  ring

theorem Plastic.ratio (h : Plastic P E eqps pl o) (hy : 0 ≤ P.rule.yieldAt o.eqps) :
    0 ≤ 1 - Real.sqrt 6 * P.shear * pl / norm9 (Correspondence.dev E) := by
  have hn := h.norm_pos
  have h1 := hy.trans h.below
  rw [h.mises, vonMises] at h1
  rw [sub_nonneg, div_le_one hn]
  have h3 := mul_le_mul_of_nonneg_left (sub_nonneg.mp h1) (Real.sqrt_nonneg 6)
  rw [← mul_assoc (Real.sqrt 6) (Real.sqrt (3 / 2)), sqrt_six] at h3
  linarith

theorem Plastic.vonMises (h : Plastic P E eqps pl o) (hy : 0 ≤ P.rule.yieldAt o.eqps) :
    o.mises = vonMises o.stress.toMatrix := by
  have hn := h.norm_pos
  unfold Correspondence.vonMises
  rw [h.dev, norm9_smul, abs_of_nonneg (h.ratio hy), h.mises, Correspondence.vonMises]
  have := sqrt_six
  generalize norm9 (Correspondence.dev E) = m at hn
  field_simp
  linear_combination (pl * P.shear) * this

/-- Enough passes for a given reduction of the residual. -/
theorem return_ok {P : Const} (hP : P.Sound) (dt : ℝ) (D sigma : M9) {eqps : ℝ} (he : 0 ≤ eqps)
    (h : (Correspondence.vonMises (elastic P dt D sigma) - P.rule.yieldAt eqps) *
      (P.rule.modulus eqps / (3 * P.shear + P.rule.modulus eqps)) ^ maxIterations ≤ tol P) :
    ∃ o, radialReturn P dt D sigma eqps = .ok o := by
  rw [return_eq hP dt D sigma he]
  split
  · exact ⟨_, rfl⟩
  · rename_i hlt
    push Not at hlt
    obtain ⟨r, hr⟩ := iterate_ok hP.rule hP.shear he maxIterations _ (start_inv hlt
      (scaled (devStress (trialStress P.bulk P.shear dt D sigma))
            (1 / magnitude (devStress (trialStress P.bulk P.shear dt D sigma))))
      (trialStress P.bulk P.shear dt D sigma)) h
    rw [hr]
    exact ⟨_, rfl⟩

/-- If hardening is not stiffer than the material, the passes suffice for all stresses that could occur. -/
theorem return_ok_of_le {P : Const} (hP : P.Sound) (dt : ℝ) (D sigma : M9) {eqps : ℝ} (he : 0 ≤ eqps)
    (hm : P.rule.modulus eqps ≤ 3 * P.shear)
    (hv : Correspondence.vonMises (elastic P dt D sigma) ≤ 10 ^ 14 * P.bulk) :
    ∃ o, radialReturn P dt D sigma eqps = .ok o := by
  apply return_ok hP dt D sigma he
  have hs := hP.shear
  have hb := hP.bulk
  have h0 := modulus_nonneg hP.rule he
  have hr : P.rule.modulus eqps / (3 * P.shear + P.rule.modulus eqps) ≤ 1 / 2 := by
    rw [div_le_div_iff₀ (by linarith) (by norm_num)]
    linarith
  have hr0 : 0 ≤ P.rule.modulus eqps / (3 * P.shear + P.rule.modulus eqps) := div_nonneg h0 (by linarith)
  have hp := pow_le_pow_left₀ hr0 hr maxIterations
  have hp0 := pow_nonneg hr0 maxIterations
  have hy : 0 ≤ P.rule.yieldAt eqps := by
    refine le_trans ?_ (hP.floor.trans (yield_mono hP.rule (le_refl 0) he))
    positivity
  have hle : Correspondence.vonMises (elastic P dt D sigma) - P.rule.yieldAt eqps ≤ 10 ^ 14 * P.bulk := by linarith
  calc _ ≤ 10 ^ 14 * P.bulk *
        (P.rule.modulus eqps / (3 * P.shear + P.rule.modulus eqps)) ^ maxIterations :=
        mul_le_mul_of_nonneg_right hle hp0
    _ ≤ 10 ^ 14 * P.bulk * (1 / 2) ^ maxIterations := mul_le_mul_of_nonneg_left hp (by positivity)
    _ = (10 ^ 14 * (1 / 2) ^ maxIterations) * P.bulk := by ring
    _ ≤ 1 / 10 ^ 16 * P.bulk := by
      refine mul_le_mul_of_nonneg_right ?_ hb.le
      norm_num [maxIterations]

theorem ip_one (a : Mat) : ip (1 : Mat) a = 3 * Correspondence.mean a := by
  simp [ip, Correspondence.mean, Matrix.trace, Fin.sum_univ_three, Matrix.one_apply]
  ring

theorem ip_dev (a b : Mat) : ip a (Correspondence.dev b) = ip (Correspondence.dev a) (Correspondence.dev b) := by
  have e : a = Correspondence.dev a + Correspondence.mean a • (1 : Mat) := by
    unfold Correspondence.dev
    abel
  conv_lhs => rw [e]
  rw [ip_add_left, ip_smul_left, ip_one, mean_dev]
  ring

end Verif.Return
