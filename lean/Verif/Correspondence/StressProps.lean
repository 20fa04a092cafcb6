import Verif.Correspondence.StressLemmas
import Verif.Correspondence.ForceProps
import Verif.Correspondence.RotProps

/-!
# Correspondence materials: elastic and plastic stress updates (C81, C82, C83, C84)
-/

noncomputable section

namespace Verif.Correspondence

open Verif Verif.Neigh Verif.Mech Verif.Tensor Matrix
open scoped Classical

/-! ### Elasticity -/

/-- The stresses of a point over a sequence of steps, each with its length, rate of deformation and
temperature change at its end. -/
def elasticSteps (bulk shear alpha : ℝ) : List (ℝ × M9 × ℝ) → ℝ → M9 → ℝ × M9
  | [], T, s => (T, s)
  | (dt, D, T') :: l, T, s =>
    elasticSteps bulk shear alpha l T' (elasticPoint bulk shear dt (some (alpha, T, T')) D s)

/-- The strain accumulated over the steps. -/
def strainOf (l : List (ℝ × M9 × ℝ)) : Mat := (l.map fun x => x.1 • x.2.1.toMatrix).sum

/-- **C81**: over any sequence of steps the stress of an elastic point changes by Hooke's law applied to
the accumulated strain less the thermal strain; it does not depend on the path. -/
theorem C81_hooke (bulk shear alpha : ℝ) (l : List (ℝ × M9 × ℝ)) (T : ℝ) (s : M9) :
    (elasticSteps bulk shear alpha l T s).2.toMatrix = s.toMatrix + hooke bulk shear
      (strainOf l - (alpha * ((elasticSteps bulk shear alpha l T s).1 - T)) • (1 : Mat)) := by
  have key : ∀ (l : List (ℝ × M9 × ℝ)) (T : ℝ) (s : M9),
      (elasticSteps bulk shear alpha l T s).2.toMatrix = s.toMatrix + hooke bulk shear (strainOf l) -
        (3 * bulk * (alpha * ((elasticSteps bulk shear alpha l T s).1 - T))) • (1 : Mat) := by
    intro l
    induction l with
    | nil => intro T s; simp [elasticSteps, strainOf, hooke]
    | cons x l ih =>
      obtain ⟨dt, D, T'⟩ := x
      intro T s
      rw [elasticSteps, ih]
      have e1 : (elasticPoint bulk shear dt (some (alpha, T, T')) D s).toMatrix =
          s.toMatrix + hooke bulk shear (dt • D.toMatrix) -
            (3 * bulk * (alpha * (T' - T))) • (1 : Mat) := by
        unfold elasticPoint
        simp only
        rw [elasticStress_eq, hooke_eq, diagSum_eq, toMatrix_scaled]
        module
      have e2 : strainOf ((dt, D, T') :: l) = dt • D.toMatrix + strainOf l := by
        unfold strainOf
        rw [List.map_cons, List.sum_cons]
      rw [e1, e2, hooke_add]
      module
  rw [key]
  have h1 : ∀ c : ℝ, hooke bulk shear (strainOf l - c • (1 : Mat)) =
      hooke bulk shear (strainOf l) - (3 * bulk * c) • (1 : Mat) := by
    intro c
    unfold hooke
    rw [trace_sub, trace_smul_one]
    module
  rw [h1, add_sub_assoc]

/-- **C81**, free thermal expansion: if the accumulated strain is the thermal strain there is no
stress change. -/
theorem C81_free_expansion (bulk shear alpha : ℝ) (l : List (ℝ × M9 × ℝ)) (T : ℝ) (s : M9)
    (h : strainOf l = (alpha * ((elasticSteps bulk shear alpha l T s).1 - T)) • (1 : Mat)) :
    (elasticSteps bulk shear alpha l T s).2 = s := by
  apply toMatrix_injective
  rw [C81_hooke, h, sub_self]
  simp [hooke]

/-- Two steps of heating by 1 with the fitting expansion, out of step with each other. -/
example : strainOf [(1, ⟨2, 0, 0, 0, 2, 0, 0, 0, 2⟩, 0), (1, ⟨0, 0, 0, 0, 0, 0, 0, 0, 0⟩, 1)] =
    ((2 : ℝ) * ((elasticSteps 5 3 2 [(1, ⟨2, 0, 0, 0, 2, 0, 0, 0, 2⟩, 0),
      (1, ⟨0, 0, 0, 0, 0, 0, 0, 0, 0⟩, 1)] 0 identity).1 - 0)) • (1 : Mat) := by
  ext i j
  fin_cases i <;> fin_cases j <;> simp [strainOf, elasticSteps, M9.toMatrix]

/-- **C81** and C77 together: in every run of an elastic body that starts with symmetric stresses, the
stresses stay symmetric and the forces of every step have no moment. -/
theorem C81_symmetric (B : Body) (bulk shear hc : ℝ) (nbs : List (List Nat)) (s0 s : State)
    (hist : List Result) (h : Run B (elasticMaterial bulk shear hc) nbs s0 s hist)
    (h0 : ∀ p < nbs.length, (s0.stress p).toMatrixᵀ = (s0.stress p).toMatrix) :
    (∀ p < nbs.length, (s.stress p).toMatrixᵀ = (s.stress p).toMatrix) ∧
    ∀ r ∈ hist, ∀ p < nbs.length, (r.stress p).toMatrixᵀ = (r.stress p).toMatrix := by
  induction h with
  | start => exact ⟨h0, fun _ h => absurd h (by simp)⟩
  | step dt y v old hr hc ih =>
    rename_i s hist r
    obtain ⟨i1, i2⟩ := ih
    have hnew : ∀ p < nbs.length, (r.stress p).toMatrixᵀ = (r.stress p).toMatrix := by
      intro p hp
      obtain ⟨_, _, _, _, h5, _⟩ := computeForce_ok hc
      have e : r.stress p = elasticPoint bulk shear dt none (r.kinematics.rate p) (s.stress p) := by
        have := BC.ok_inj h5
        rw [← this]
      obtain ⟨_, _, h3⟩ := rotation_at hc hp
      have hD : (r.kinematics.rate p).toMatrixᵀ = (r.kinematics.rate p).toMatrix := by
        rw [h3, unrotated_eq]
        simp only [transpose_mul, transpose_transpose, transpose_smul, transpose_add, Matrix.mul_assoc]
        rw [add_comm (gradientAt B v nbs r p).toMatrixᵀ]
      rw [e]
      unfold elasticPoint
      simp only
      rw [elasticStress_eq, transpose_add, transpose_add, transpose_smul, transpose_smul, transpose_one,
        i1 p hp, transpose_dev _ (by rw [transpose_smul, hD])]
    refine ⟨hnew, fun r' hr' => ?_⟩
    rcases List.mem_cons.mp hr' with rfl | hr'
    · exact hnew
    · exact i2 r' hr'

/-- **C80** for the elastic material: rigid motion in any configuration leaves its unrotated stress as it
is. -/
theorem C80_elastic_rigid (B : Body) (bulk shear hc dt : ℝ) (y v : Nat → V3) (s : State) (old : Stale)
    (nbs : List (List Nat)) (r : Result)
    (h : computeForce B (elasticMaterial bulk shear hc) dt y v s old nbs.length (encode nbs) = .ok r)
    (c w : V3) (hv : ∀ k, v k = c + crossProduct w (y k)) (p : Nat) (hp : p < nbs.length) :
    r.stress p = s.stress p := by
  obtain ⟨_, _, _, _, h5, _⟩ := computeForce_ok h
  have e : r.stress p = elasticPoint bulk shear dt none (r.kinematics.rate p) (s.stress p) := by
    have := BC.ok_inj h5
    rw [← this]
  apply toMatrix_injective
  rw [e]
  unfold elasticPoint
  simp only
  rw [elasticStress_eq, diagSum_eq, toMatrix_scaled, C80_rigid B _ dt y v s old nbs r h c w hv p hp,
    smul_zero, dev_zero, trace_zero]
  simp

/-- An evaluation with the elastic material. -/
theorem corner_elastic (dt : ℝ) (v : Nat → V3) (s : State) :
    ∃ r, computeForce cornerBody (elasticMaterial 5 3 1) dt (stretched 2) v s blank cornerList.length
      (encode cornerList) = .ok r := by
  have ha : (2 : ℝ) ≠ 0 := two_ne_zero
  refine computeForce_defined _ _ _ _ _ _ _ _ ?_ ?_ ?_ ?_
  · intro p ns h
    obtain ⟨rfl, rfl⟩ := corner_get h
    rw [← shapeTensor_point cornerBody cornerList h, corner_shape, toMatrix_identity]
    simp
  · intro p ns h
    obtain ⟨rfl, rfl⟩ := corner_get h
    rw [corner_shape, invert_identity, corner_first, determinant_eq, toMatrix_mm, toMatrix_identity,
      Matrix.mul_one, ← determinant_eq]
    simp [determinant]
  · rintro p j ⟨ns, h, hj⟩
    obtain ⟨rfl, rfl⟩ := corner_get h
    exact ⟨one_ne_zero, corner_len j hj 2 ha⟩
  · exact fun d => ⟨_, rfl⟩

example : ∃ s hist, Run cornerBody (elasticMaterial 5 3 1) cornerList virgin s hist ∧ hist.length = 1 ∧
    ∀ p < cornerList.length, (virgin.stress p).toMatrixᵀ = (virgin.stress p).toMatrix := by
  obtain ⟨r, h⟩ := corner_elastic 1 (stretched 1) virgin
  refine ⟨_, _, .step 1 _ _ blank .start h, rfl, fun p _ => ?_⟩
  show identity.toMatrixᵀ = identity.toMatrix
  rw [toMatrix_identity, transpose_one]

example : ∃ r, computeForce cornerBody (elasticMaterial 5 3 1) 1 (stretched 2)
    (fun k => ![1, 0, 0] + crossProduct ![0, 0, 1] (stretched 2 k)) virgin blank
    cornerList.length (encode cornerList) = .ok r ∧ r.stress 0 = identity := by
  obtain ⟨r, h⟩ := corner_elastic 1 (fun k => ![1, 0, 0] + crossProduct ![0, 0, 1] (stretched 2 k)) virgin
  exact ⟨r, h, C80_elastic_rigid _ _ _ _ _ _ _ _ _ _ _ h _ _ (fun _ => rfl) 0 (by decide)⟩

/-! ### Perfect plasticity -/

/-- **C82**, one step of the perfectly plastic material: the result lies within the yield surface, the
recorded von Mises stress is that of the result, the mean stress is the elastic one, the deviatoric
stress is a multiple of the elastic one, a step whose elastic stress does not exceed the yield stress is
elastic, and the equivalent plastic strain does not decrease. -/
theorem C82_step (bulk shear yield dt : ℝ) (D sigma : M9) (eqps : ℝ) (o : PlasticOut)
    (hy : 0 ≤ yield) (h : perfectPoint bulk shear yield dt D sigma eqps = .ok o) :
    vonMises o.stress.toMatrix ≤ yield ∧ o.mises = vonMises o.stress.toMatrix ∧
    mean o.stress.toMatrix = mean sigma.toMatrix + bulk * (dt • D.toMatrix).trace ∧
    (∃ c : ℝ, 0 ≤ c ∧ c ≤ 1 ∧
      dev o.stress.toMatrix = c • dev (sigma.toMatrix + hooke bulk shear (dt • D.toMatrix))) ∧
    (vonMises (sigma.toMatrix + hooke bulk shear (dt • D.toMatrix)) ≤ yield →
      o.stress.toMatrix = sigma.toMatrix + hooke bulk shear (dt • D.toMatrix) ∧ o.eqps = eqps) ∧
    eqps ≤ o.eqps := by
  have hm : mean (trialStress bulk shear dt D sigma).toMatrix =
      mean sigma.toMatrix + bulk * (dt • D.toMatrix).trace := by
    rw [trial_eq, mean_add, hooke_eq, mean_add, mean_smul, mean_smul, mean_one, mean_dev]
    ring
  rw [← trial_eq]
  unfold perfectPoint at h
  simp only at h
  split at h
  · rename_i hlt
    split at h
    · exact absurd h (by simp)
    · cases h
      obtain ⟨p1, p2, p3⟩ := plasticOut_stress shear yield (devStrain dt D)
        (trialStress bulk shear dt D sigma) sigma eqps
      refine ⟨?_, p3, p2.trans hm, ⟨_, ?_, ?_, p1⟩, ?_, ?_⟩
      · rw [plasticOut_mises shear yield hy]
        exact mul_le_of_le_one_right hy (ratio_le _)
      · exact div_nonneg (mul_nonneg (Real.sqrt_nonneg _) hy) (magnitude_pos _).le
      · unfold factor
        rw [div_le_one (magnitude_pos _)]
        rw [misesOf_eq] at hlt
        have h1 := mul_le_mul_of_nonneg_left hlt.le (Real.sqrt_nonneg (2 / 3 : ℝ))
        rw [← mul_assoc, mul_comm (Real.sqrt (2 / 3)) (Real.sqrt (3 / 2)), sqrt_prod, one_mul] at h1
        exact h1.trans ((div_le_one (magnitude_pos _)).mp (norm_ratio _))
      · intro hle
        rw [misesOf_dev] at hlt
        exact absurd hlt (not_lt.mpr hle)
      · exact le_add_of_nonneg_right (le_max_left _ _)
  · rename_i hle
    cases h
    rw [misesOf_dev] at hle ⊢
    exact ⟨not_lt.mp hle, rfl, hm, ⟨1, zero_le_one, le_refl _, (one_smul _ _).symm⟩,
      fun _ => ⟨rfl, rfl⟩, le_refl _⟩

/-- Simple shear at twice the shear strain that yields. -/
def shearRate : M9 := ⟨0, 1, 0, 1, 0, 0, 0, 0, 0⟩

theorem shear_dev : dev shearRate.toMatrix = shearRate.toMatrix := by
  unfold dev mean
  rw [trace_fin_three]
  simp [shearRate, M9.toMatrix]

theorem shear_norm : ip shearRate.toMatrix shearRate.toMatrix = 2 := by
  simp only [ip, Fin.sum_univ_three]
  simp [shearRate, M9.toMatrix]
  norm_num

theorem shear_trial : dev (trialStress 1 1 1 shearRate Tensor.zero).toMatrix =
    (2 : ℝ) • shearRate.toMatrix := by
  rw [trial_eq, toMatrix_zero, zero_add, dev_hooke, one_smul, shear_dev]
  norm_num

theorem shear_norm_trial : norm9 (dev (trialStress 1 1 1 shearRate Tensor.zero).toMatrix) =
    Real.sqrt 8 := by
  rw [shear_trial]
  unfold norm9
  rw [ip_smul_left, ip_smul_right, shear_norm]
  norm_num

theorem shear_mises : 1 < misesOf (devStress (trialStress 1 1 1 shearRate Tensor.zero)) := by
  rw [misesOf_dev]
  unfold vonMises
  rw [shear_norm_trial, ← Real.sqrt_mul (by norm_num), Real.lt_sqrt (by norm_num)]
  norm_num

/-- The step used in the examples below. -/
theorem shear_step : perfectPoint 1 1 1 1 shearRate Tensor.zero 0 =
    .ok (plasticOut 1 1 (devStrain 1 shearRate) (trialStress 1 1 1 shearRate Tensor.zero) Tensor.zero 0) := by
  unfold perfectPoint
  simp only
  rw [if_pos shear_mises, if_neg one_ne_zero]

example : ∃ o, perfectPoint 1 1 1 1 shearRate Tensor.zero 0 = .ok o ∧ (0 : ℝ) ≤ 1 :=
  ⟨_, shear_step, zero_le_one⟩

/-- **C82**: a plastic step ends on the yield surface, unless stresses are below the threshold the code
uses to avoid dividing by zero. -/
theorem C82_on_surface (bulk shear yield dt : ℝ) (D sigma : M9) (eqps : ℝ) (o : PlasticOut)
    (hy : 0 ≤ yield) (h : perfectPoint bulk shear yield dt D sigma eqps = .ok o)
    (hp : yield < vonMises (sigma.toMatrix + hooke bulk shear (dt • D.toMatrix)))
    (hs : 1 / 10 ^ 20 ≤ norm9 (dev (sigma.toMatrix + hooke bulk shear (dt • D.toMatrix)))) :
    vonMises o.stress.toMatrix = yield := by
  rw [← trial_eq] at hp hs
  unfold perfectPoint at h
  simp only at h
  rw [if_pos (by rw [misesOf_dev]; exact hp)] at h
  split at h
  · exact absurd h (by simp)
  · cases h
    rw [plasticOut_mises shear yield hy, ratio_eq _ hs, mul_one]

theorem shear_large : (1 : ℝ) / 10 ^ 20 ≤
    norm9 (dev (trialStress 1 1 1 shearRate Tensor.zero).toMatrix) := by
  rw [shear_norm_trial]
  refine Real.le_sqrt_of_sq_le ?_
  norm_num

example : ∃ o, perfectPoint 1 1 1 1 shearRate Tensor.zero 0 = .ok o ∧
    vonMises o.stress.toMatrix = 1 := by
  refine ⟨_, shear_step, C82_on_surface _ _ _ _ _ _ _ _ zero_le_one shear_step ?_ ?_⟩
  · rw [← trial_eq, ← misesOf_dev]; exact shear_mises
  · rw [← trial_eq]; exact shear_large

/-- Whole histories of a perfectly plastic point. -/
def perfectSteps (bulk shear yield : ℝ) (l : List (ℝ × M9)) (o : PlasticOut) : Outcome PlasticOut :=
  l.foldlM (fun o x => perfectPoint bulk shear yield x.1 x.2 o.stress o.eqps) o

/-- **C82**, whole histories: from a stress within the yield surface, any sequence of steps leaves the
stress within it, changes the mean stress as an elastic material would and does not decrease the
equivalent plastic strain. -/
theorem C82_history (bulk shear yield : ℝ) (hy : 0 ≤ yield) (l : List (ℝ × M9)) (o o' : PlasticOut)
    (h : perfectSteps bulk shear yield l o = .ok o') (ho : vonMises o.stress.toMatrix ≤ yield) :
    vonMises o'.stress.toMatrix ≤ yield ∧ o.eqps ≤ o'.eqps ∧
    mean o'.stress.toMatrix = mean o.stress.toMatrix +
      bulk * Matrix.trace ((l.map fun x : ℝ × M9 => x.1 • x.2.toMatrix).sum) := by
  unfold perfectSteps at h
  induction l generalizing o with
  | nil => cases h; exact ⟨ho, le_refl _, by simp⟩
  | cons x l ih =>
    obtain ⟨o1, h1, h2⟩ := BC.foldlM_cons_ok.mp h
    obtain ⟨a1, _, a3, _, _, a6⟩ := C82_step _ _ _ _ _ _ _ _ hy h1
    obtain ⟨b1, b2, b3⟩ := ih o1 h2 a1
    refine ⟨b1, a6.trans b2, ?_⟩
    rw [b3, a3, List.map_cons, List.sum_cons, trace_add]
    ring

example : ∃ o', perfectSteps 1 1 1 [(1, shearRate)] ⟨Tensor.zero, 0, 0⟩ = .ok o' ∧
    vonMises (Tensor.zero).toMatrix ≤ 1 := by
  refine ⟨_, BC.foldlM_cons_ok.mpr ⟨_, shear_step, rfl⟩, ?_⟩
  unfold vonMises
  rw [toMatrix_zero, dev_zero, norm9_zero]
  norm_num

/-! ### Equivalent plastic strain -/

/-- The equivalent plastic strain grows by the size of the plastic strain increment. -/
def EqpsExact : Prop :=
  ∀ (bulk shear yield dt : ℝ) (D sigma : M9) (eqps : ℝ) (o : PlasticOut), 0 < shear → 0 < yield →
    perfectPoint bulk shear yield dt D sigma eqps = .ok o →
    o.eqps - eqps = Real.sqrt (2 / 3) *
      norm9 (plasticStrain shear (dt • D.toMatrix) sigma.toMatrix o.stress.toMatrix)

/-- **C83**, what holds: the recorded increment is neither negative nor larger than the size of the
plastic strain increment; and from a state without deviatoric stress it is at most half of it. -/
theorem C83_bounds_partial (bulk shear yield dt : ℝ) (D sigma : M9) (eqps : ℝ) (o : PlasticOut)
    (hy : 0 ≤ yield) (h : perfectPoint bulk shear yield dt D sigma eqps = .ok o) :
    0 ≤ o.eqps - eqps ∧
    o.eqps - eqps ≤ Real.sqrt (2 / 3) *
      norm9 (plasticStrain shear (dt • D.toMatrix) sigma.toMatrix o.stress.toMatrix) ∧
    (dev sigma.toMatrix = 0 → o.eqps - eqps ≤ 1 / 2 * (Real.sqrt (2 / 3) *
      norm9 (plasticStrain shear (dt • D.toMatrix) sigma.toMatrix o.stress.toMatrix))) := by
  have hnn : ∀ m : Mat, 0 ≤ Real.sqrt (2 / 3) * norm9 m := fun m =>
    mul_nonneg (Real.sqrt_nonneg _) (norm9_nonneg _)
  refine ⟨by linarith [(C82_step _ _ _ _ _ _ _ _ hy h).2.2.2.2.2], ?_⟩
  unfold perfectPoint at h
  simp only at h
  split at h
  · rename_i hlt
    split at h
    · exact absurd h (by simp)
    · cases h
      have hi : ∀ t : M9, (plasticOut shear yield (devStrain dt D) t sigma eqps).eqps - eqps =
          eqpsIncrement shear (devStrain dt D) (devStress t) (returned (devStress t) yield)
            (devStress sigma) := by
        intro t
        unfold plasticOut
        ring
      rw [hi]
      have hle := eqpsIncrement_le shear (devStrain dt D)
        (devStress (trialStress bulk shear dt D sigma))
        (returned (devStress (trialStress bulk shear dt D sigma)) yield) (devStress sigma)
      rw [plasticIncrement_eq shear yield dt D (trialStress bulk shear dt D sigma) sigma eqps] at hle
      have r1 := returned_ratio (trialStress bulk shear dt D sigma) yield hy hlt
      have r2 := norm_ratio (devStress sigma)
      refine ⟨hle.trans ?_, fun hz => hle.trans ?_⟩
      · refine mul_le_of_le_one_right (hnn _) (by linarith)
      · rw [devStress_eq, hz, norm9_zero, zero_div, add_zero, mul_comm]
        refine mul_le_mul_of_nonneg_right (by linarith) (hnn _)
  · cases h
    rw [sub_self]
    exact ⟨hnn _, fun _ => mul_nonneg (by norm_num) (hnn _)⟩

example : ∃ o, perfectPoint 1 1 1 1 shearRate Tensor.zero 0 = .ok o ∧ dev (Tensor.zero).toMatrix = 0 :=
  ⟨_, shear_step, by rw [toMatrix_zero, dev_zero]⟩

/-- The plastic strain of a step is the part of the trial stress that was removed. -/
theorem plastic_eq (bulk shear yield dt : ℝ) (hs : shear ≠ 0) (D sigma : M9) (eqps : ℝ) :
    plasticStrain shear (dt • D.toMatrix) sigma.toMatrix
      (plasticOut shear yield (devStrain dt D) (trialStress bulk shear dt D sigma) sigma eqps).stress.toMatrix =
      ((1 - factor (devStress (trialStress bulk shear dt D sigma)) yield) / (2 * shear)) •
        dev (trialStress bulk shear dt D sigma).toMatrix := by
  unfold plasticStrain
  rw [(plasticOut_stress shear yield (devStrain dt D) _ sigma eqps).1]
  have e : dev (dt • D.toMatrix) =
      (1 / (2 * shear)) • (dev (trialStress bulk shear dt D sigma).toMatrix - dev sigma.toMatrix) := by
    rw [trial_eq, dev_add, dev_hooke, add_sub_cancel_left, smul_smul, one_div_mul_cancel (by simpa using hs),
      one_smul]
  rw [e]
  module

/-- **C83 is false of the code**: in the first plastic step of a virgin point less than half of the
plastic strain is recorded. -/
theorem C83_not_exact : ¬ EqpsExact := by
  intro hex
  have e := hex 1 1 1 1 shearRate Tensor.zero 0 _ one_pos one_pos shear_step
  have hb := (C83_bounds_partial 1 1 1 1 shearRate Tensor.zero 0 _ zero_le_one shear_step).2.2
    (by rw [toMatrix_zero, dev_zero])
  rw [e] at hb
  rw [plastic_eq 1 1 1 1 one_ne_zero, norm9_smul, shear_norm_trial] at hb
  have hf : factor (devStress (trialStress 1 1 1 shearRate Tensor.zero)) 1 < 1 := by
    unfold factor
    rw [div_lt_one (magnitude_pos _), magnitude_eq, devStress_eq, shear_norm_trial, mul_one]
    refine lt_of_lt_of_le ?_ (le_max_right _ _)
    exact Real.sqrt_lt_sqrt (by norm_num) (by norm_num)
  have hpos : 0 < Real.sqrt (2 / 3) *
      (|(1 - factor (devStress (trialStress 1 1 1 shearRate Tensor.zero)) 1) / (2 * 1)| * Real.sqrt 8) := by
    refine mul_pos (Real.sqrt_pos.mpr (by norm_num)) (mul_pos (abs_pos.mpr ?_) (Real.sqrt_pos.mpr (by norm_num)))
    exact div_ne_zero (by linarith) (by norm_num)
  linarith

end Verif.Correspondence
