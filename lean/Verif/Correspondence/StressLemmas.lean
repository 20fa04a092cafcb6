import Verif.Correspondence.StressSpec
import Verif.Correspondence.Defined
import Mathlib.Algebra.Order.BigOperators.Ring.Finset

/-!
# Correspondence materials: helper lemmas on the stress updates
-/

noncomputable section

namespace Verif.Correspondence

open Verif Verif.Neigh Verif.Mech Verif.Tensor Matrix
open scoped Classical

theorem toMatrix_scaled (a : M9) (c : ℝ) : (scaled a c).toMatrix = c • a.toMatrix := by
  ext i j
  fin_cases i <;> fin_cases j <;> simp [scaled, M9.toMatrix, mul_comm]

theorem toMatrix_diagAdd (a : M9) (c : ℝ) : (diagAdd a c).toMatrix = a.toMatrix + c • (1 : Mat) := by
  ext i j
  fin_cases i <;> fin_cases j <;> simp [diagAdd, M9.toMatrix]

theorem diagSum_eq (a : M9) : diagSum a = a.toMatrix.trace := by
  rw [trace_fin_three]
  rfl

theorem toMatrix_addScaled (a : M9) (c : ℝ) (b : M9) :
    (addScaled a c b).toMatrix = a.toMatrix + c • b.toMatrix := by
  ext i j
  fin_cases i <;> fin_cases j <;> simp [addScaled, M9.toMatrix]

theorem toMatrix_sub9 (a b : M9) : (sub9 a b).toMatrix = a.toMatrix - b.toMatrix := by
  ext i j
  fin_cases i <;> fin_cases j <;> simp [sub9, M9.toMatrix]

theorem contract_eq (a b : M9) : contract a b = ip a.toMatrix b.toMatrix := by
  simp only [ip, Fin.sum_univ_three]
  show _ = (a.xx * b.xx + a.xy * b.xy + a.xz * b.xz) + (a.yx * b.yx + a.yy * b.yy + a.yz * b.yz) +
    (a.zx * b.zx + a.zy * b.zy + a.zz * b.zz)
  unfold contract
  ring

theorem spherical_eq (a : M9) : spherical a = mean a.toMatrix := by
  unfold mean
  rw [← diagSum_eq]
  rfl

theorem devStress_eq (a : M9) : (devStress a).toMatrix = dev a.toMatrix := by
  unfold devStress dev
  rw [toMatrix_diagAdd, spherical_eq, neg_smul, sub_eq_add_neg]

theorem trace_smul_one (c : ℝ) : (c • (1 : Mat)).trace = 3 * c := by
  rw [trace_smul, trace_one]
  simp [mul_comm]

theorem mean_add (a b : Mat) : mean (a + b) = mean a + mean b := by
  unfold mean; rw [trace_add]; ring

theorem mean_smul (c : ℝ) (a : Mat) : mean (c • a) = c * mean a := by
  unfold mean; rw [trace_smul, smul_eq_mul]; ring

theorem mean_one : mean (1 : Mat) = 1 := by
  unfold mean; rw [trace_one]; simp

theorem mean_sub (a b : Mat) : mean (a - b) = mean a - mean b := by
  unfold mean; rw [trace_sub]; ring

theorem mean_dev (a : Mat) : mean (dev a) = 0 := by
  unfold dev
  rw [mean_sub, mean_smul, mean_one]; ring

theorem dev_add (a b : Mat) : dev (a + b) = dev a + dev b := by
  unfold dev; rw [mean_add, add_smul]; abel

theorem dev_smul (c : ℝ) (a : Mat) : dev (c • a) = c • dev a := by
  unfold dev; rw [mean_smul, smul_sub, smul_smul]

theorem dev_one : dev (1 : Mat) = 0 := by
  unfold dev; rw [mean_one, one_smul, sub_self]

theorem dev_dev (a : Mat) : dev (dev a) = dev a := by
  show dev a - mean (dev a) • (1 : Mat) = dev a
  rw [mean_dev, zero_smul, sub_zero]

theorem dev_zero : dev (0 : Mat) = 0 := by
  unfold dev mean; simp

theorem transpose_dev (a : Mat) (h : aᵀ = a) : (dev a)ᵀ = dev a := by
  unfold dev; rw [transpose_sub, transpose_smul, transpose_one, h]

theorem devStrain_eq (dt : ℝ) (D : M9) : (devStrain dt D).toMatrix = dev (dt • D.toMatrix) := by
  unfold devStrain dev mean
  rw [toMatrix_diagAdd, toMatrix_scaled, diagSum_eq, toMatrix_scaled, neg_smul, sub_eq_add_neg]

/-- The stress of a step with a dilatation increment. -/
theorem elasticStress_eq (bulk shear d dt : ℝ) (D sigma : M9) :
    (elasticStress bulk shear d (devStrain dt D) sigma).toMatrix =
      sigma.toMatrix + (2 * shear) • dev (dt • D.toMatrix) + (bulk * d) • (1 : Mat) := by
  unfold elasticStress
  rw [toMatrix_diagAdd, toMatrix_addScaled, toMatrix_scaled, toMatrix_scaled, devStrain_eq, one_smul,
    smul_smul, mul_comm shear]

theorem hooke_eq (bulk shear : ℝ) (e : Mat) :
    hooke bulk shear e = (2 * shear) • dev e + (bulk * e.trace) • (1 : Mat) := by
  unfold hooke dev mean
  module

theorem hooke_add (bulk shear : ℝ) (a b : Mat) :
    hooke bulk shear (a + b) = hooke bulk shear a + hooke bulk shear b := by
  unfold hooke
  rw [trace_add]
  module

theorem trial_eq (bulk shear dt : ℝ) (D sigma : M9) :
    (trialStress bulk shear dt D sigma).toMatrix =
      sigma.toMatrix + hooke bulk shear (dt • D.toMatrix) := by
  unfold trialStress
  rw [elasticStress_eq, hooke_eq, diagSum_eq, toMatrix_scaled, add_assoc]

theorem dev_hooke (bulk shear : ℝ) (e : Mat) : dev (hooke bulk shear e) = (2 * shear) • dev e := by
  rw [hooke_eq, dev_add, dev_smul, dev_smul, dev_one, smul_zero, add_zero, dev_dev]

/-! ### Contraction -/

theorem ip_comm (a b : Mat) : ip a b = ip b a := by
  unfold ip
  simp only [mul_comm]

theorem ip_add_left (a b c : Mat) : ip (a + b) c = ip a c + ip b c := by
  unfold ip
  simp only [Matrix.add_apply, add_mul, Finset.sum_add_distrib]

theorem ip_smul_left (r : ℝ) (a c : Mat) : ip (r • a) c = r * ip a c := by
  unfold ip
  simp only [Matrix.smul_apply, smul_eq_mul, Finset.mul_sum, mul_assoc]

theorem ip_add_right (a b c : Mat) : ip a (b + c) = ip a b + ip a c := by
  rw [ip_comm, ip_add_left, ip_comm b, ip_comm c]

theorem ip_smul_right (r : ℝ) (a c : Mat) : ip a (r • c) = r * ip a c := by
  rw [ip_comm, ip_smul_left, ip_comm]

theorem ip_self_nonneg (a : Mat) : 0 ≤ ip a a :=
  Finset.sum_nonneg fun _ _ => Finset.sum_nonneg fun _ _ => mul_self_nonneg _

theorem norm9_nonneg (a : Mat) : 0 ≤ norm9 a := Real.sqrt_nonneg _

theorem norm9_sq (a : Mat) : norm9 a ^ 2 = ip a a := Real.sq_sqrt (ip_self_nonneg a)

theorem norm9_smul (r : ℝ) (a : Mat) : norm9 (r • a) = |r| * norm9 a := by
  unfold norm9
  rw [ip_smul_left, ip_smul_right, ← mul_assoc, Real.sqrt_mul (mul_self_nonneg r), Real.sqrt_mul_self_eq_abs]

theorem ip_le (a b : Mat) : ip a b ≤ norm9 a * norm9 b := by
  have h : (ip a b) ^ 2 ≤ ip a a * ip b b := by
    have := Finset.sum_mul_sq_le_sq_mul_sq (Finset.univ : Finset (Fin 3 × Fin 3))
      (fun p => a p.1 p.2) (fun p => b p.1 p.2)
    simp only [Fintype.sum_prod_type, pow_two] at this
    unfold ip
    rw [pow_two]
    exact this
  have h2 : (ip a b) ^ 2 ≤ (norm9 a * norm9 b) ^ 2 := by
    rw [mul_pow, norm9_sq, norm9_sq]; exact h
  exact (abs_le_of_sq_le_sq' h2 (mul_nonneg (norm9_nonneg a) (norm9_nonneg b))).2

theorem norm9_zero : norm9 (0 : Mat) = 0 := by
  unfold norm9 ip; simp

theorem misesOf_eq (S : M9) : misesOf S = Real.sqrt (3 / 2) * norm9 S.toMatrix := by
  unfold misesOf norm9
  rw [contract_eq, Real.sqrt_mul (by norm_num)]

theorem misesOf_dev (t : M9) : misesOf (devStress t) = vonMises t.toMatrix := by
  rw [misesOf_eq, devStress_eq]
  rfl

theorem magnitude_eq (S : M9) : magnitude S = max (1 / 10 ^ 20) (norm9 S.toMatrix) := by
  unfold magnitude norm9
  rw [contract_eq]

theorem magnitude_pos (S : M9) : 0 < magnitude S := lt_of_lt_of_le (by positivity) (le_max_left _ _)

theorem sqrt_prod : Real.sqrt (3 / 2) * Real.sqrt (2 / 3) = 1 := by
  rw [← Real.sqrt_mul (by norm_num)]
  norm_num

/-- The factor applied to the deviatoric trial stress. -/
def factor (S : M9) (yield : ℝ) : ℝ := Real.sqrt (2 / 3) * yield / magnitude S

theorem returned_eq (S : M9) (yield : ℝ) :
    (returned S yield).toMatrix = factor S yield • S.toMatrix := by
  unfold returned factor
  rw [toMatrix_scaled]

theorem plasticOut_stress (shear yield : ℝ) (e t sigma : M9) (eqps : ℝ) :
    dev (plasticOut shear yield e t sigma eqps).stress.toMatrix = factor (devStress t) yield • dev t.toMatrix ∧
    mean (plasticOut shear yield e t sigma eqps).stress.toMatrix = mean t.toMatrix ∧
    (plasticOut shear yield e t sigma eqps).mises =
      vonMises (plasticOut shear yield e t sigma eqps).stress.toMatrix := by
  have h1 : (plasticOut shear yield e t sigma eqps).stress.toMatrix =
      factor (devStress t) yield • dev t.toMatrix + mean t.toMatrix • (1 : Mat) := by
    unfold plasticOut
    rw [toMatrix_diagAdd, returned_eq, devStress_eq, spherical_eq]
  have h2 : dev (plasticOut shear yield e t sigma eqps).stress.toMatrix =
      factor (devStress t) yield • dev t.toMatrix := by
    rw [h1, dev_add, dev_smul, dev_smul, dev_one, smul_zero, add_zero, dev_dev]
  refine ⟨h2, ?_, ?_⟩
  · rw [h1, mean_add, mean_smul, mean_smul, mean_one, mean_dev]
    ring
  · show misesOf (returned (devStress t) yield) = _
    unfold vonMises
    rw [h2, misesOf_eq, returned_eq, devStress_eq]

/-- The von Mises stress after the return. -/
theorem plasticOut_mises (shear yield : ℝ) (hy : 0 ≤ yield) (e t sigma : M9) (eqps : ℝ) :
    vonMises (plasticOut shear yield e t sigma eqps).stress.toMatrix =
      yield * (norm9 (dev t.toMatrix) / magnitude (devStress t)) := by
  unfold vonMises
  have hm := magnitude_pos (devStress t)
  rw [(plasticOut_stress shear yield e t sigma eqps).1, norm9_smul]
  unfold factor
  rw [abs_of_nonneg (div_nonneg (mul_nonneg (Real.sqrt_nonneg _) hy) hm.le)]
  have := sqrt_prod
  field_simp
  linear_combination yield * norm9 (dev t.toMatrix) * this

theorem ratio_le (t : M9) : norm9 (dev t.toMatrix) / magnitude (devStress t) ≤ 1 := by
  rw [div_le_one (magnitude_pos _), magnitude_eq, devStress_eq]
  exact le_max_right _ _

theorem ratio_eq (t : M9) (h : 1 / 10 ^ 20 ≤ norm9 (dev t.toMatrix)) :
    norm9 (dev t.toMatrix) / magnitude (devStress t) = 1 := by
  rw [magnitude_eq, devStress_eq, max_eq_right h]
  exact div_self (ne_of_gt (lt_of_lt_of_le (by positivity) h))

/-! ### The increment of plastic strain -/

theorem norm_ratio (S : M9) : norm9 S.toMatrix / magnitude S ≤ 1 := by
  rw [div_le_one (magnitude_pos _), magnitude_eq]
  exact le_max_right _ _

/-- What the code contracts is the plastic strain increment. -/
theorem plasticIncrement_eq (shear yield dt : ℝ) (D t sigma : M9) (eqps : ℝ) :
    (plasticIncrement shear (devStrain dt D) (returned (devStress t) yield) (devStress sigma)).toMatrix =
      plasticStrain shear (dt • D.toMatrix) sigma.toMatrix
        (plasticOut shear yield (devStrain dt D) t sigma eqps).stress.toMatrix := by
  unfold plasticIncrement plasticStrain
  rw [(plasticOut_stress shear yield (devStrain dt D) t sigma eqps).1, toMatrix_sub9, devStrain_eq,
    toMatrix_scaled, toMatrix_scaled, toMatrix_sub9, returned_eq, devStress_eq, devStress_eq, smul_smul]
  congr 2
  rw [one_div_mul_one_div_rev]

/-- The increment is at most the mean of two fractions of the norm of the plastic strain increment. -/
theorem eqpsIncrement_le (shear : ℝ) (e S S' SN : M9) :
    eqpsIncrement shear e S S' SN ≤ Real.sqrt (2 / 3) *
      norm9 (plasticIncrement shear e S' SN).toMatrix *
        ((norm9 S'.toMatrix / magnitude S + norm9 SN.toMatrix / magnitude SN) / 2) := by
  have hA := norm9_nonneg (plasticIncrement shear e S' SN).toMatrix
  have hS := Real.sqrt_nonneg (2 / 3 : ℝ)
  have p1 := div_nonneg (norm9_nonneg S'.toMatrix) (magnitude_pos S).le
  have p2 := div_nonneg (norm9_nonneg SN.toMatrix) (magnitude_pos SN).le
  unfold eqpsIncrement
  refine max_le (mul_nonneg (mul_nonneg hS hA) (by linarith)) ?_
  rw [mul_assoc]
  refine mul_le_mul_of_nonneg_left ?_ hS
  rw [contract_eq]
  unfold meanDirection
  rw [toMatrix_scaled, toMatrix_addScaled, toMatrix_scaled, toMatrix_scaled, one_smul, ip_smul_right,
    ip_add_right, ip_smul_right, ip_smul_right]
  have c1 := ip_le (plasticIncrement shear e S' SN).toMatrix S'.toMatrix
  have c2 := ip_le (plasticIncrement shear e S' SN).toMatrix SN.toMatrix
  have m1 := mul_le_mul_of_nonneg_left c1 (one_div_nonneg.mpr (magnitude_pos S).le)
  have m2 := mul_le_mul_of_nonneg_left c2 (one_div_nonneg.mpr (magnitude_pos SN).le)
  have e1 : norm9 (plasticIncrement shear e S' SN).toMatrix *
      ((norm9 S'.toMatrix / magnitude S + norm9 SN.toMatrix / magnitude SN) / 2) =
      1 / 2 * (1 / magnitude S * (norm9 (plasticIncrement shear e S' SN).toMatrix * norm9 S'.toMatrix) +
        1 / magnitude SN * (norm9 (plasticIncrement shear e S' SN).toMatrix * norm9 SN.toMatrix)) := by
    ring
  rw [e1]
  linarith

/-- After a return to a yield value below the trial von Mises stress the first fraction is at most one. -/
theorem returned_ratio (t : M9) (yield : ℝ) (hy : 0 ≤ yield) (h : yield < misesOf (devStress t)) :
    norm9 (returned (devStress t) yield).toMatrix / magnitude (devStress t) ≤ 1 := by
  rw [div_le_one (magnitude_pos _), returned_eq, norm9_smul]
  unfold factor
  have hm := magnitude_pos (devStress t)
  rw [abs_of_nonneg (div_nonneg (mul_nonneg (Real.sqrt_nonneg _) hy) hm.le)]
  have hr := norm_ratio (devStress t)
  have h2 : Real.sqrt (2 / 3) * yield ≤ norm9 (devStress t).toMatrix := by
    rw [misesOf_eq] at h
    have := mul_le_mul_of_nonneg_left h.le (Real.sqrt_nonneg (2 / 3 : ℝ))
    have sp := sqrt_prod
    have e : Real.sqrt (2 / 3) * (Real.sqrt (3 / 2) * norm9 (devStress t).toMatrix) =
        norm9 (devStress t).toMatrix := by
      rw [← mul_assoc, mul_comm (Real.sqrt (2 / 3)), sp, one_mul]
    linarith
  have h3 : norm9 (devStress t).toMatrix ≤ magnitude (devStress t) := (div_le_one hm).mp hr
  calc Real.sqrt (2 / 3) * yield / magnitude (devStress t) * norm9 (devStress t).toMatrix
      = Real.sqrt (2 / 3) * yield * (norm9 (devStress t).toMatrix / magnitude (devStress t)) := by ring
    _ ≤ Real.sqrt (2 / 3) * yield * 1 :=
        mul_le_mul_of_nonneg_left hr (mul_nonneg (Real.sqrt_nonneg _) hy)
    _ ≤ magnitude (devStress t) := by linarith

end Verif.Correspondence
