import Verif.Needleman.Lemmas
import Verif.Return.ReturnLemmas

/-! A step at one point. -/

noncomputable section

namespace Verif.Needleman

open Verif Verif.Neigh Verif.Mech Verif.Tensor Verif.Correspondence Matrix
open scoped Classical

variable {P : Const}

theorem pow_eq {x e : ℝ} (hx : 0 ≤ x) (he : 0 ≤ e) : Return.pow x e = .ok (x ^ e) := by
  unfold Return.pow
  rw [if_neg]
  rintro (h | ⟨-, h⟩) <;> linarith

theorem yieldFunction_eq (hP : P.Sound) {dt yield lambda eqps : ℝ} (hdt : 0 < dt) (hl : 0 ≤ lambda) (he : 0 ≤ eqps) :
    yieldFunction P dt yield lambda eqps = .ok (P.flowStress yield (Real.sqrt (2 / 3) * lambda / dt) eqps) := by
  unfold yieldFunction
  have h0 := hP.ref0
  have h1 := hP.ref1
  have h2 := hP.refRate
  rw [if_neg (by rintro (h | h | h | h) <;> linarith), pow_eq (by positivity) hP.strainExp,
    pow_eq (by positivity) hP.rateExp]
  rfl

theorem flowStress_nonneg (hP : P.Sound) {yield rate eqps : ℝ} (hy : 0 ≤ yield) (hr : 0 ≤ rate) (he : 0 ≤ eqps) :
    0 ≤ P.flowStress yield rate eqps := by
  unfold Const.flowStress
  have h0 := hP.ref0
  have h2 := hP.refRate
  have := Real.rpow_nonneg (div_nonneg hr h2.le) P.rateExp
  positivity

theorem flowStress_continuous (hP : P.Sound) {dt yield eqps q : ℝ} (hdt : 0 < dt) (he : 0 ≤ eqps) (hq : 0 ≤ q) :
    ContinuousOn (fun x => P.flowStress yield (Real.sqrt (2 / 3) * x / dt) (eqps + q * x)) (Set.Icc 0 1) := by
  unfold Const.flowStress
  refine ContinuousOn.mul (ContinuousOn.div (continuousOn_const.mul ?_) (by fun_prop) ?_) ?_
  · exact ContinuousOn.rpow_const (by fun_prop) fun x _ => .inr hP.strainExp
  · intro x _
    positivity
  · exact ContinuousOn.rpow_const (by fun_prop) fun x _ => .inr hP.rateExp

theorem balance_continuous (hP : P.Sound) {dt yield eqps : ℝ} (hdt : 0 < dt) (he : 0 ≤ eqps) (D sigma : M9) :
    ContinuousOn (P.balance yield dt D sigma eqps) (Set.Icc 0 1) := by
  have h := flowStress_continuous (yield := yield) hP hdt he zero_le_one
  simp only [one_mul] at h
  unfold Const.balance
  fun_prop

theorem dev_elastic (dt : ℝ) (D sigma : M9) :
    dev (elastic P dt D sigma) = dev sigma.toMatrix + (2 * P.shear) • dev (dt • D.toMatrix) := by
  unfold elastic
  rw [dev_add, dev_hooke]

/-- What the elastic step leaves for the plastic one. -/
theorem balance_ge (hP : P.Sound) {dt yield eqps : ℝ} (D sigma : M9) (hE : 0 < norm9 (dev (elastic P dt D sigma)))
    (x : ℝ) :
    (norm9 (dev (elastic P dt D sigma)) -
      Real.sqrt (2 / 3) * P.flowStress yield (Real.sqrt (2 / 3) * x / dt) (eqps + x)) / (2 * P.shear) - x ≤
      P.balance yield dt D sigma eqps x := by
  have hs := hP.shear
  unfold Const.balance
  have h1 := ip_le (dev (elastic P dt D sigma)) (dev sigma.toMatrix)
  have h2 : ip (dev (elastic P dt D sigma)) (dev (dt • D.toMatrix)) * (2 * P.shear) =
      norm9 (dev (elastic P dt D sigma)) ^ 2 - ip (dev (elastic P dt D sigma)) (dev sigma.toMatrix) := by
    rw [norm9_sq]
    conv_rhs => rw [dev_elastic (P := P) dt D sigma]
    conv_rhs => rw [ip_add_right, ip_smul_right]
    rw [← dev_elastic (P := P) dt D sigma]
    ring
  generalize P.flowStress yield (Real.sqrt (2 / 3) * x / dt) (eqps + x) = Y
  generalize ip (dev (elastic P dt D sigma)) (dev (dt • D.toMatrix)) = i at *
  generalize ip (dev (elastic P dt D sigma)) (dev sigma.toMatrix) = j at *
  generalize norm9 (dev (elastic P dt D sigma)) = m at *
  generalize norm9 (dev sigma.toMatrix) = k at *
  have hi : i / m = (m - j / m) / (2 * P.shear) := by
    field_simp
    linarith
  have hj : j / m ≤ k := by
    rw [div_le_iff₀ hE]
    linarith
  rw [hi]
  have : (m - Real.sqrt (2 / 3) * Y) / (2 * P.shear) ≤
      (m - j / m) / (2 * P.shear) - (Real.sqrt (2 / 3) * Y - k) / (2 * P.shear) := by
    rw [← sub_div]
    exact div_le_div_of_nonneg_right (by linarith) (by linarith)
  linarith

/-- Without plastic flow there is more stress than the material holds, however the stress turns. -/
theorem balance_zero (hP : P.Sound) (hm : 0 < P.rateExp) {dt yield eqps : ℝ} (D sigma : M9)
    (hE : 0 < norm9 (dev (elastic P dt D sigma))) : 0 < P.balance yield dt D sigma eqps 0 := by
  have hs := hP.shear
  have h := balance_ge (yield := yield) (eqps := eqps) hP D sigma hE 0
  have h0 : P.flowStress yield (Real.sqrt (2 / 3) * 0 / dt) (eqps + 0) = 0 := by
    unfold Const.flowStress
    rw [mul_zero, zero_div, zero_div, Real.zero_rpow hm.ne', mul_zero]
  rw [h0, mul_zero, sub_zero, sub_zero] at h
  have : 0 < norm9 (dev (elastic P dt D sigma)) / (2 * P.shear) := by positivity
  linarith

theorem residual_eq (hP : P.Sound) {dt yield eqps x : ℝ} (hdt : 0 < dt) (he : 0 ≤ eqps) (D sigma : M9) (hx : 0 ≤ x)
    (hE : 1 / 10 ^ 20 ≤ norm9 (dev (elastic P dt D sigma))) :
    residual P dt yield (contract (devStress (trialStress P.bulk P.shear dt D sigma)) (devStrain dt D) /
      magnitude (devStress (trialStress P.bulk P.shear dt D sigma)))
      (Real.sqrt (contract (devStress sigma) (devStress sigma))) eqps x = .ok (P.balance yield dt D sigma eqps x) := by
  have hs := hP.shear
  unfold residual
  rw [yieldFunction_eq hP hdt hx (add_nonneg he hx)]
  simp only [Outcome.ok_bind]
  refine congrArg Outcome.ok ?_
  rw [contract_eq, contract_eq, magnitude_eq, devStress_eq, devStress_eq, devStrain_eq, trial_eq]
  show ip (dev (elastic P dt D sigma)) _ / max _ (norm9 (dev (elastic P dt D sigma))) - x -
    1 / 2 / P.shear * (_ - norm9 (dev sigma.toMatrix)) = _
  rw [max_eq_right hE]
  unfold Const.balance
  generalize P.flowStress yield (Real.sqrt (2 / 3) * x / dt) (eqps + x) = Y
  generalize norm9 (dev sigma.toMatrix) = k
  generalize ip (dev (elastic P dt D sigma)) (dev (dt • D.toMatrix)) / norm9 (dev (elastic P dt D sigma)) = i
  field_simp

/-- The residual is defined even if the stress is too small for the guard. -/
theorem residual_ok (hP : P.Sound) {dt yield eqps x e m : ℝ} (hdt : 0 < dt) (he : 0 ≤ eqps) (hx : 0 ≤ x) :
    residual P dt yield e m eqps x = .ok (e - x - 1 / 2 / P.shear * (Real.sqrt (2 / 3) *
      P.flowStress yield (Real.sqrt (2 / 3) * x / dt) (eqps + x) - m)) := by
  unfold residual
  rw [yieldFunction_eq hP hdt hx (add_nonneg he hx)]
  rfl

/-- The magnitude of the plastic strain increment the code works with. -/
theorem search_ok (hP : P.Sound) {dt yield eqps : ℝ} (hdt : 0 < dt) (he : 0 ≤ eqps) (e S SN : M9) :
    ∃ r, search P dt yield e S SN eqps = .ok r ∧ 0 < r.value ∧ r.value < 1 :=
  bisect_range (g := fun x => contract S e / magnitude S - x - 1 / 2 / P.shear * (Real.sqrt (2 / 3) *
      P.flowStress yield (Real.sqrt (2 / 3) * x / dt) (eqps + x) - Real.sqrt (contract SN SN)))
    (fun x hx _ => residual_ok hP hdt he hx.le) maxPasses (le_refl 0) zero_lt_one (le_refl 1)

/-- The increment found for a step at one point. -/
def found (P : Const) (yield dt : ℝ) (D sigma : M9) (eqps : ℝ) : Outcome Root :=
  search P dt yield (devStrain dt D) (devStress (trialStress P.bulk P.shear dt D sigma)) (devStress sigma) eqps

/-- The flow stress for that increment. -/
def Const.target (P : Const) (yield dt eqps x : ℝ) : ℝ :=
  P.flowStress yield (Real.sqrt (2 / 3) * x / dt) (eqps + Real.sqrt (2 / 3) * x)

/-- A step that stays elastic. -/
def Stays (P : Const) (dt : ℝ) (D sigma : M9) (eqps : ℝ) (o : PlasticOut) : Prop :=
  o = ⟨trialStress P.bulk P.shear dt D sigma, vonMises (elastic P dt D sigma), eqps⟩

theorem point_eq (hP : P.Sound) {yield dt eqps : ℝ} (hdt : 0 < dt) (he : 0 ≤ eqps) (D sigma : M9) :
    ∃ o, point P yield dt D sigma eqps = .ok o ∧
      ((vonMises (elastic P dt D sigma) < yield ∧ Stays P dt D sigma eqps o) ∨
       (yield ≤ vonMises (elastic P dt D sigma) ∧ ∃ r, found P yield dt D sigma eqps = .ok r ∧ 0 < r.value ∧
          r.value < 1 ∧
          ((vonMises (elastic P dt D sigma) ≤ P.target yield dt eqps r.value ∧ Stays P dt D sigma eqps o) ∨
           (P.target yield dt eqps r.value < vonMises (elastic P dt D sigma) ∧
            o = plasticOut P.shear (P.target yield dt eqps r.value) (devStrain dt D)
              (trialStress P.bulk P.shear dt D sigma) sigma eqps)))) := by
  unfold point
  simp only [misesOf_dev, trial_eq]
  change ∃ o, (if vonMises (elastic P dt D sigma) < yield then _ else _) = Outcome.ok o ∧ _
  by_cases h : vonMises (elastic P dt D sigma) < yield
  · rw [if_pos h]
    exact ⟨_, rfl, .inl ⟨h, rfl⟩⟩
  · rw [if_neg h, if_neg hP.shear.ne']
    obtain ⟨r, hr, h1, h2⟩ := search_ok (yield := yield) hP hdt he (devStrain dt D)
      (devStress (trialStress P.bulk P.shear dt D sigma)) (devStress sigma)
    rw [hr]
    simp only [Outcome.ok_bind]
    rw [yieldFunction_eq hP hdt h1.le (by positivity)]
    simp only [Outcome.ok_bind]
    change ∃ o, (if P.target yield dt eqps r.value < vonMises (elastic P dt D sigma) then _ else _) = Outcome.ok o ∧ _
    by_cases ht : P.target yield dt eqps r.value < vonMises (elastic P dt D sigma)
    · rw [if_pos ht]
      exact ⟨_, rfl, .inr ⟨not_lt.mp h, r, hr, h1, h2, .inr ⟨ht, rfl⟩⟩⟩
    · rw [if_neg ht]
      exact ⟨_, rfl, .inr ⟨not_lt.mp h, r, hr, h1, h2, .inl ⟨not_lt.mp ht, rfl⟩⟩⟩

end Verif.Needleman
