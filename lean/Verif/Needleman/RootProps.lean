import Verif.Needleman.Props

/-! C157 (the plastic increment), C158 (the recorded plastic strain), C159 (slow deformations). -/

noncomputable section

namespace Verif.Needleman

open Verif Verif.Neigh Verif.Mech Verif.Tensor Verif.Correspondence Matrix
open scoped Classical

/-! ### C157: the plastic increment -/

/-- The search for a step in which the equation has no zero below `s` and is not positive at one. -/
theorem found_root {P : Const} (hP : P.Sound) {yield dt eqps s : ℝ} (hdt : 0 < dt) (he : 0 ≤ eqps) {D sigma : M9}
    (hE : 1 / 10 ^ 20 ≤ norm9 (dev (elastic P dt D sigma))) (hs : (1 / 2) ^ 99000 ≤ s)
    (hpos : ∀ x, 0 ≤ x → x < s → 0 < P.balance yield dt D sigma eqps x)
    (hone : P.balance yield dt D sigma eqps 1 ≤ 0) :
    ∃ v x, found P yield dt D sigma eqps = .ok ⟨v, true⟩ ∧ 0 < v ∧ v < 1 ∧ s ≤ x ∧ x ≤ 1 ∧
      P.balance yield dt D sigma eqps x = 0 ∧ |v - x| ≤ 1 / 10 ^ 6 * v := by
  have hs0 : 0 < s := lt_of_lt_of_le (by positivity) hs
  have hf : ∀ x, 0 < x → x ≤ 1 → residual P dt yield
      (contract (devStress (trialStress P.bulk P.shear dt D sigma)) (devStrain dt D) /
        magnitude (devStress (trialStress P.bulk P.shear dt D sigma)))
      (Real.sqrt (contract (devStress sigma) (devStress sigma))) eqps x = .ok (P.balance yield dt D sigma eqps x) :=
    fun x hx _ => residual_eq hP hdt he D sigma hx.le hE
  have hB : Bracket (P.balance yield dt D sigma eqps) 0 1 := by
    rcases lt_or_eq_of_le hone with h | h
    · exact .inl ⟨(hpos 0 (le_refl 0) hs0).le, h⟩
    · exact .inr h
  have hs1 : s ≤ 1 := by
    by_contra hlt
    push Not at hlt
    linarith [hpos 1 zero_le_one hlt]
  have hw : (1 : ℝ) - 0 < 2 / 10 ^ 6 * s * 2 ^ 99999 := by
    have h1 : (2 : ℝ) ^ 999 ≤ s * 2 ^ 99999 := by
      have := mul_le_mul_of_nonneg_right hs (show (0 : ℝ) ≤ 2 ^ 99999 by positivity)
      refine le_trans (le_of_eq ?_) this
      rw [show 99999 = 99000 + 999 from rfl, pow_add (2 : ℝ) 99000 999, ← mul_assoc, ← mul_pow]
      rw [show (1 / 2 * 2 : ℝ) = 1 by norm_num, one_pow, one_mul]
    have h2 : (2 : ℝ) ^ 20 ≤ 2 ^ 999 := pow_le_pow_right₀ (by norm_num) (by norm_num)
    have h3 : (2 / 10 ^ 6 : ℝ) * 2 ^ 20 > 1 := by norm_num
    have h4 : (2 / 10 ^ 6 : ℝ) * 2 ^ 20 ≤ 2 / 10 ^ 6 * (s * 2 ^ 99999) :=
      mul_le_mul_of_nonneg_left (h2.trans h1) (by positivity)
    rw [sub_zero, mul_assoc]
    exact lt_of_lt_of_le h3 h4
  obtain ⟨v, hv⟩ := bisect_converges hf hs0 (fun x hx hxs => hpos x hx.le hxs) 99999 (le_refl 0) zero_lt_one
    (le_refl 1) hB hs1 hw
  obtain ⟨r, hr, h1, h2⟩ := bisect_range hf (99999 + 1) (le_refl 0) zero_lt_one (le_refl 1)
  rw [hv] at hr
  cases hr
  obtain ⟨x, hx0, hx1, hx, hd⟩ := bisect_root hf (balance_continuous hP hdt he D sigma) (99999 + 1) (le_refl 0)
    zero_lt_one (le_refl 1) hB hv rfl
  refine ⟨v, x, hv, h1, h2, ?_, hx1, hx, hd⟩
  by_contra hlt
  push Not at hlt
  linarith [hpos x hx0 hlt]

/-- **C157**, what holds: if the plastic increment is smaller than one (`balance` is not positive there), and
not too small for 100000 halvings, the search ends without a message, close to a solution `x` of the
equation; the stress is then the flow stress of that increment, or the elastic stress if that is not
larger. -/
theorem C157_increment_partial {P : Const} (hP : P.Sound) {yield dt eqps s : ℝ} (hy : 2 / 10 ^ 20 ≤ yield)
    (hdt : 0 < dt) (he : 0 ≤ eqps) {D sigma : M9} {o : PlasticOut} (h : point P yield dt D sigma eqps = .ok o)
    (hE : yield ≤ vonMises (elastic P dt D sigma)) (hs : (1 / 2) ^ 99000 ≤ s)
    (hpos : ∀ x, 0 ≤ x → x < s → 0 < P.balance yield dt D sigma eqps x)
    (hone : P.balance yield dt D sigma eqps 1 ≤ 0) :
    ∃ v x, search P dt yield (devStrain dt D) (devStress (trialStress P.bulk P.shear dt D sigma))
        (devStress sigma) eqps = .ok ⟨v, true⟩ ∧
      s ≤ x ∧ x ≤ 1 ∧ P.balance yield dt D sigma eqps x = 0 ∧ 0 < v ∧ v < 1 ∧ |v - x| ≤ 1 / 10 ^ 6 * v ∧
      vonMises o.stress.toMatrix = min (vonMises (elastic P dt D sigma))
        (P.flowStress yield (Real.sqrt (2 / 3) * v / dt) (eqps + Real.sqrt (2 / 3) * v)) := by
  have hn := Return.norm_floor (hy.trans hE)
  have hy0 : 0 < yield := lt_of_lt_of_le (by positivity) hy
  obtain ⟨v, x, hv, h1, h2, h3, h4, h5, h6⟩ := found_root hP hdt he hn hs hpos hone
  refine ⟨v, x, hv, h3, h4, h5, h1, h2, h6, ?_⟩
  obtain ⟨o', ho, hc⟩ := point_eq (yield := yield) hP hdt he D sigma
  rw [h] at ho
  cases ho
  have e : (trialStress P.bulk P.shear dt D sigma).toMatrix = elastic P dt D sigma := trial_eq _ _ _ _ _
  rcases hc with hc | ⟨h0, r, hr, hr0, hr1, hc | ⟨ht, hc⟩⟩
  · exact absurd hc.1 (not_lt.mpr hE)
  · rw [hv] at hr
    cases hr
    rw [min_eq_left (by exact hc.1), hc.2]
    show vonMises (trialStress P.bulk P.shear dt D sigma).toMatrix = _
    rw [e]
  · rw [hv] at hr
    cases hr
    have hY : 0 ≤ P.target yield dt eqps v := flowStress_nonneg hP hy0.le (by positivity) (by positivity)
    have am := plasticOut_mises P.shear (P.target yield dt eqps v) hY (devStrain dt D)
      (trialStress P.bulk P.shear dt D sigma) sigma eqps
    rw [ratio_eq _ (by rw [e]; exact hn), mul_one] at am
    rw [min_eq_right (by exact ht.le), hc]
    exact am

/-- The step of the example: the equation changes sign between 7/20 and 1. -/
theorem example_pos : ∀ x : ℝ, 0 ≤ x → x < 7 / 20 → 0 < viscous.balance 1 1 (shearBy (3 / 8)) zero 0 x := by
  intro x hx hlt
  rw [viscous_balance one_pos (by norm_num)]
  have h1 := sqrt_two.1
  have h2 : x / (3 * 1 * (1 + x ^ 2)) ≤ x / 3 :=
    div_le_div_of_nonneg_left hx (by norm_num) (by nlinarith [sq_nonneg x])
  linarith

theorem example_one : viscous.balance 1 1 (shearBy (3 / 8)) zero 0 1 ≤ 0 := by
  rw [viscous_balance one_pos (by norm_num)]
  have h1 := sqrt_two.2
  norm_num
  linarith

theorem half_small : ((1 : ℝ) / 2) ^ 99000 ≤ 7 / 20 :=
  le_trans (pow_le_pow_of_le_one (by norm_num) (by norm_num) (show 2 ≤ 99000 by norm_num)) (by norm_num)

example : ∃ o, point viscous 1 1 (shearBy (3 / 8)) zero 0 = .ok o ∧
    (2 : ℝ) / 10 ^ 20 ≤ 1 ∧ 1 ≤ vonMises (elastic viscous 1 (shearBy (3 / 8)) zero) ∧
    ((1 : ℝ) / 2) ^ 99000 ≤ 7 / 20 ∧
    (∀ x : ℝ, 0 ≤ x → x < 7 / 20 → 0 < viscous.balance 1 1 (shearBy (3 / 8)) zero 0 x) ∧
    viscous.balance 1 1 (shearBy (3 / 8)) zero 0 1 ≤ 0 := by
  obtain ⟨o, ho, -⟩ := C156_step viscous_sound one_pos one_pos (le_refl 0) (shearBy (3 / 8)) zero
  exact ⟨o, ho, by norm_num, viscous_yields, half_small, example_pos, example_one⟩

/-- The von Mises stress after the step of the example. -/
theorem example_stress : ∃ o v, point viscous 1 1 (shearBy (3 / 8)) zero 0 = .ok o ∧ 349 / 1000 ≤ v ∧ v ≤ 1 ∧
    vonMises o.stress.toMatrix = Real.sqrt (2 / 3) * (v / (1 + 2 / 3 * v ^ 2)) ∧
    vonMises o.stress.toMatrix < vonMises (elastic viscous 1 (shearBy (3 / 8)) zero) := by
  obtain ⟨o, ho, -⟩ := C156_step viscous_sound one_pos one_pos (le_refl 0) (shearBy (3 / 8)) zero
  obtain ⟨v, x, -, hx, hx1, -, hv, hv1, hd, hm⟩ := C157_increment_partial viscous_sound (by norm_num) one_pos (le_refl 0) ho
    viscous_yields half_small example_pos example_one
  rw [abs_le] at hd
  have hlo : 349 / 1000 ≤ v := by
    have := hd.1
    linarith
  rw [viscous_flow] at hm
  have e : Real.sqrt (2 / 3) * v / 1 / (1 + (0 + Real.sqrt (2 / 3) * v) ^ 2) =
      Real.sqrt (2 / 3) * (v / (1 + 2 / 3 * v ^ 2)) := by
    rw [zero_add, mul_pow, Real.sq_sqrt (by norm_num), div_one, mul_div_assoc]
  rw [e] at hm
  have hlt : Real.sqrt (2 / 3) * (v / (1 + 2 / 3 * v ^ 2)) < vonMises (elastic viscous 1 (shearBy (3 / 8)) zero) := by
    refine lt_of_lt_of_le ?_ viscous_yields
    have h1 : v / (1 + 2 / 3 * v ^ 2) < 1 := by
      rw [div_lt_one (by positivity)]
      nlinarith
    have := sqrt_third
    nlinarith
  rw [min_eq_right hlt.le] at hm
  exact ⟨o, v, ho, hlo, hv1.le, hm, by rw [hm]; exact hlt⟩

/-- Hypotheses of C156_surface. -/
example : ∃ o, point viscous 1 1 (shearBy (3 / 8)) zero 0 = .ok o ∧ (2 : ℝ) / 10 ^ 20 ≤ 1 ∧
    o.stress.toMatrix ≠ elastic viscous 1 (shearBy (3 / 8)) zero := by
  obtain ⟨o, v, ho, -, -, -, hlt⟩ := example_stress
  exact ⟨o, ho, by norm_num, fun he => by rw [he] at hlt; exact lt_irrefl _ hlt⟩

/-- **C157**, the smallest solution is not zero: if the flow stress depends on the rate, the equation is
positive for small increments, however the direction of the stress changes in the step. -/
theorem C157_start {P : Const} (hP : P.Sound) (hm : 0 < P.rateExp) {yield dt eqps : ℝ} (hy : 0 < yield)
    (hdt : 0 < dt) (he : 0 ≤ eqps) {D sigma : M9} (hE : yield ≤ vonMises (elastic P dt D sigma)) :
    ∃ s, 0 < s ∧ ∀ x, 0 ≤ x → x < s → 0 < P.balance yield dt D sigma eqps x := by
  have hn : 0 < norm9 (dev (elastic P dt D sigma)) := by
    have := norm9_nonneg (dev (elastic P dt D sigma))
    rcases lt_or_eq_of_le this with h | h
    · exact h
    · unfold vonMises at hE
      rw [← h, mul_zero] at hE
      linarith
  have h0 := balance_zero (yield := yield) (eqps := eqps) hP hm D sigma hn
  have hc := (balance_continuous (yield := yield) hP hdt he D sigma) 0 ⟨le_refl 0, zero_le_one⟩
  have hev := hc.eventually (lt_mem_nhds h0)
  rw [Filter.Eventually, Metric.mem_nhdsWithin_iff] at hev
  obtain ⟨ε, hε, hsub⟩ := hev
  refine ⟨min ε 1, lt_min hε one_pos, fun x hx hlt => ?_⟩
  refine hsub ⟨?_, hx, (hlt.le.trans (min_le_right _ _))⟩
  rw [Metric.mem_ball, Real.dist_eq, sub_zero, abs_of_nonneg hx]
  exact lt_of_lt_of_le hlt (min_le_left _ _)

example : viscous.Sound ∧ 0 < viscous.rateExp ∧ 1 ≤ vonMises (elastic viscous 1 (shearBy (3 / 8)) zero) :=
  ⟨viscous_sound, by norm_num [viscous], viscous_yields⟩

/-- **C157** fails for larger increments: if the plastic increment is larger than one the search walks away
from it, prints its message after 100000 halvings of the wrong interval, and the step goes on with an increment
of 2⁻¹⁰⁰⁰⁰¹. -/
theorem C157_runaway {P : Const} (hP : P.Sound) {yield dt eqps : ℝ} (hy : 2 / 10 ^ 20 ≤ yield) (hdt : 0 < dt)
    (he : 0 ≤ eqps) {D sigma : M9} {o : PlasticOut} (h : point P yield dt D sigma eqps = .ok o)
    (hE : yield ≤ vonMises (elastic P dt D sigma))
    (hpos : ∀ x, 0 < x → x ≤ 1 → 0 < P.balance yield dt D sigma eqps x) :
    search P dt yield (devStrain dt D) (devStress (trialStress P.bulk P.shear dt D sigma)) (devStress sigma) eqps =
        .ok ⟨(1 / 2) / 2 ^ 100000, false⟩ ∧
      vonMises o.stress.toMatrix = min (vonMises (elastic P dt D sigma))
        (P.flowStress yield (Real.sqrt (2 / 3) * ((1 / 2) / 2 ^ 100000) / dt)
          (eqps + Real.sqrt (2 / 3) * ((1 / 2) / 2 ^ 100000))) := by
  have hn := Return.norm_floor (hy.trans hE)
  have hy0 : 0 < yield := lt_of_lt_of_le (by positivity) hy
  have hv : found P yield dt D sigma eqps = .ok ⟨(1 / 2) / 2 ^ 100000, false⟩ :=
    bisect_runaway (fun x hx _ => residual_eq hP hdt he D sigma hx.le hn) (.inl hpos) maxPasses one_pos (le_refl 1)
  refine ⟨hv, ?_⟩
  have hv0 : (0 : ℝ) < (1 / 2) / 2 ^ 100000 := by positivity
  generalize (1 / 2 : ℝ) / 2 ^ 100000 = v at hv hv0
  obtain ⟨o', ho, hc⟩ := point_eq (yield := yield) hP hdt he D sigma
  rw [h] at ho
  cases ho
  have e : (trialStress P.bulk P.shear dt D sigma).toMatrix = elastic P dt D sigma := trial_eq _ _ _ _ _
  rcases hc with hc | ⟨h0, r, hr, hr0, hr1, hc | ⟨ht, hc⟩⟩
  · exact absurd hc.1 (not_lt.mpr hE)
  · rw [hv] at hr
    cases hr
    rw [min_eq_left (by exact hc.1), hc.2]
    show vonMises (trialStress P.bulk P.shear dt D sigma).toMatrix = _
    rw [e]
  · rw [hv] at hr
    cases hr
    have hY : 0 ≤ P.target yield dt eqps v := flowStress_nonneg hP hy0.le (by positivity) (by positivity)
    have am := plasticOut_mises P.shear (P.target yield dt eqps v) hY (devStrain dt D)
      (trialStress P.bulk P.shear dt D sigma) sigma eqps
    rw [ratio_eq _ (by rw [e]; exact hn), mul_one] at am
    rw [min_eq_right (by exact ht.le), hc]
    exact am

/-- A step with a large increment. -/
theorem large_pos : ∀ x : ℝ, 0 < x → x ≤ 1 → 0 < viscous.balance 1 1 (shearBy 2) zero 0 x := by
  intro x hx hlt
  rw [viscous_balance one_pos (by norm_num)]
  have h1 := sqrt_two.1
  have h2 : x / (3 * 1 * (1 + x ^ 2)) ≤ x / 3 :=
    div_le_div_of_nonneg_left hx.le (by norm_num) (by nlinarith [sq_nonneg x])
  linarith

theorem large_yields : (1 : ℝ) ≤ vonMises (elastic viscous 1 (shearBy 2) zero) := by
  rw [mises_shearBy, abs_of_pos (by norm_num [viscous])]
  have := sqrt_three.1
  norm_num [viscous]
  linarith

/-- The case is met, the equation has a solution above one, and the stress has all but vanished. -/
example : ∃ o, point viscous 1 1 (shearBy 2) zero 0 = .ok o ∧ (2 : ℝ) / 10 ^ 20 ≤ 1 ∧
    1 ≤ vonMises (elastic viscous 1 (shearBy 2) zero) ∧
    (∀ x : ℝ, 0 < x → x ≤ 1 → 0 < viscous.balance 1 1 (shearBy 2) zero 0 x) ∧
    viscous.balance 1 1 (shearBy 2) zero 0 3 < 0 ∧
    vonMises o.stress.toMatrix ≤ 1 / 10 ^ 6 := by
  obtain ⟨o, ho, -⟩ := C156_step viscous_sound one_pos one_pos (le_refl 0) (shearBy 2) zero
  refine ⟨o, ho, by norm_num, large_yields, large_pos, ?_, ?_⟩
  · rw [viscous_balance one_pos (by norm_num)]
    have := sqrt_two.2
    norm_num
    linarith
  · have h := (C157_runaway viscous_sound (by norm_num) one_pos (le_refl 0) ho large_yields large_pos).2
    rw [h, viscous_flow]
    refine le_trans (min_le_right _ _) ?_
    have hsmall : (1 / 2 : ℝ) / 2 ^ 100000 ≤ 1 / 10 ^ 6 := by
      have : (2 : ℝ) ^ 20 ≤ 2 ^ 100000 := pow_le_pow_right₀ (by norm_num) (by norm_num)
      calc (1 / 2 : ℝ) / 2 ^ 100000 ≤ 1 / 2 / 2 ^ 20 :=
            div_le_div_of_nonneg_left (by norm_num) (by norm_num) this
        _ ≤ _ := by norm_num
    have hv0 : (0 : ℝ) < (1 / 2) / 2 ^ 100000 := by positivity
    generalize (1 / 2 : ℝ) / 2 ^ 100000 = v at hsmall hv0
    have hq := sqrt_third
    refine le_trans (div_le_self (by positivity) (by nlinarith [sq_nonneg (0 + Real.sqrt (2 / 3) * v)])) ?_
    rw [div_one]
    nlinarith

end Verif.Needleman
