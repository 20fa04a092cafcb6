import Verif.Return.Spec
import Verif.Correspondence.StressLemmas
import Mathlib.Analysis.Convex.SpecificFunctions.Basic
import Mathlib.Analysis.SpecialFunctions.Pow.Deriv
import Mathlib.Analysis.SpecialFunctions.ExpDeriv

/-! Facts about the hardening rules and the iteration. -/

noncomputable section

namespace Verif.Return

open Verif Verif.Neigh Verif.Mech Verif.Tensor Verif.Correspondence Matrix
open scoped Classical

/-- The slope in closed form. -/
def Rule.modulus : Rule → ℝ → ℝ
  | .powerLaw y c n, e => y * n / c * (1 + e / c) ^ (n - 1)
  | .saturation y0 ys k lin, e => k * (ys - y0) * Real.exp (-(k * e)) + lin

theorem base_pos {c e : ℝ} (hc : 0 < c) (he : 0 ≤ e) : 0 < 1 + e / c := by positivity

theorem hasDeriv (R : Rule) (hR : R.Sound) {e : ℝ} (he : 0 ≤ e) : HasDerivAt R.yieldAt (R.modulus e) e := by
  cases R with
  | powerLaw y c n =>
    obtain ⟨-, hc, -, -⟩ := hR
    have h1 : HasDerivAt (fun x : ℝ => 1 + x / c) (1 / c) e := by
      simpa using ((hasDerivAt_id e).div_const c).const_add 1
    have h2 := (h1.rpow_const (p := n) (Or.inl (base_pos hc he).ne')).const_mul y
    refine h2.congr_deriv ?_
    simp only [Rule.modulus]
    ring
  | saturation y0 ys k lin =>
    have h1 : HasDerivAt (fun x : ℝ => -(k * x)) (-k) e := by
      have := ((hasDerivAt_id e).const_mul k).neg
      simp only [mul_one] at this
      exact this
    have h2 := (((h1.exp).const_mul (ys - y0)).const_sub ys).add ((hasDerivAt_id e).const_mul lin)
    refine h2.congr_deriv ?_
    simp only [Rule.modulus]
    ring

theorem slope_eq {R : Rule} (hR : R.Sound) {e : ℝ} (he : 0 ≤ e) : R.slopeAt e = R.modulus e :=
  (hasDeriv R hR he).deriv

theorem hardened_eq {R : Rule} (hR : R.Sound) {e : ℝ} (he : 0 ≤ e) : hardened R e = .ok (R.yieldAt e) := by
  cases R with
  | powerLaw y c n =>
    obtain ⟨-, hc, -, -⟩ := hR
    have hb := base_pos hc he
    simp only [hardened]
    rw [if_neg hc.ne', pow, if_neg (by rintro (h | h) <;> linarith [h])]
    rfl
  | saturation y0 ys k lin =>
    unfold hardened
    refine congrArg Outcome.ok ?_
    simp only [Rule.yieldAt, neg_mul]
    ring

theorem hardMod_eq {R : Rule} (hR : R.Sound) {e : ℝ} (he : 0 ≤ e) : hardMod R e = .ok (R.modulus e) := by
  cases R with
  | powerLaw y c n =>
    obtain ⟨-, hc, -, -⟩ := hR
    have hb := base_pos hc he
    simp only [hardMod]
    rw [if_neg hc.ne', pow, if_neg (by rintro (h | h) <;> linarith [h])]
    rfl
  | saturation y0 ys k lin =>
    unfold hardMod
    refine congrArg Outcome.ok ?_
    simp only [Rule.modulus, neg_mul]

theorem modulus_nonneg {R : Rule} (hR : R.Sound) {e : ℝ} (he : 0 ≤ e) : 0 ≤ R.modulus e := by
  cases R with
  | powerLaw y c n =>
    obtain ⟨hy, hc, hn, -⟩ := hR
    have hb := base_pos hc he
    simp only [Rule.modulus]
    positivity
  | saturation y0 ys k lin =>
    obtain ⟨hy, hs, hk, hl⟩ := hR
    have : 0 ≤ ys - y0 := by linarith
    simp only [Rule.modulus]
    positivity

theorem modulus_anti {R : Rule} (hR : R.Sound) {a b : ℝ} (ha : 0 ≤ a) (hab : a ≤ b) :
    R.modulus b ≤ R.modulus a := by
  cases R with
  | powerLaw y c n =>
    obtain ⟨hy, hc, hn, hn1⟩ := hR
    simp only [Rule.modulus]
    have hb := base_pos hc ha
    refine mul_le_mul_of_nonneg_left ?_ (by positivity)
    refine Real.rpow_le_rpow_of_nonpos hb ?_ (by linarith)
    have : a / c ≤ b / c := div_le_div_of_nonneg_right hab hc.le
    linarith
  | saturation y0 ys k lin =>
    obtain ⟨hy, hs, hk, hl⟩ := hR
    have h1 : 0 ≤ ys - y0 := by linarith
    simp only [Rule.modulus]
    have h2 : Real.exp (-(k * b)) ≤ Real.exp (-(k * a)) :=
      Real.exp_le_exp.mpr (by nlinarith)
    have := mul_le_mul_of_nonneg_left h2 (mul_nonneg hk h1)
    linarith

/-- The yield stress stays below its tangents. -/
theorem tangent {R : Rule} (hR : R.Sound) {a b : ℝ} (ha : 0 ≤ a) (hb : 0 ≤ b) :
    R.yieldAt b ≤ R.yieldAt a + R.modulus a * (b - a) := by
  cases R with
  | powerLaw y c n =>
    obtain ⟨hy, hc, hn, hn1⟩ := hR
    have pa := base_pos hc ha
    have pb := base_pos hc hb
    simp only [Rule.modulus, Rule.yieldAt]
    have hs : (1 + b / c) = (1 + a / c) * (1 + (b - a) / c / (1 + a / c)) := by
      field_simp
      ring
    have hge : -1 ≤ (b - a) / c / (1 + a / c) := by
      rw [le_div_iff₀ pa, le_div_iff₀ hc]
      have : a / c * c = a := by field_simp
      nlinarith
    have hB := rpow_one_add_le_one_add_mul_self hge hn hn1
    rw [hs, Real.mul_rpow pa.le (by linarith)]
    have hsub : (1 + a / c) ^ (n - 1) = (1 + a / c) ^ n / (1 + a / c) := Real.rpow_sub_one pa.ne' n
    rw [hsub]
    have hp : 0 < (1 + a / c) ^ n := Real.rpow_pos_of_pos pa n
    have := mul_le_mul_of_nonneg_left hB (mul_nonneg hy.le hp.le)
    calc y * ((1 + a / c) ^ n * (1 + (b - a) / c / (1 + a / c)) ^ n)
        = y * (1 + a / c) ^ n * (1 + (b - a) / c / (1 + a / c)) ^ n := by ring
      _ ≤ y * (1 + a / c) ^ n * (1 + n * ((b - a) / c / (1 + a / c))) := this
      _ = _ := by
        generalize (1 + a / c) ^ n = q
        field_simp
  | saturation y0 ys k lin =>
    obtain ⟨hy, hs, hk, hl⟩ := hR
    have h1 : 0 ≤ ys - y0 := by linarith
    simp only [Rule.modulus, Rule.yieldAt]
    have h2 : Real.exp (-(k * b)) = Real.exp (-(k * a)) * Real.exp (-(k * (b - a))) := by
      rw [← Real.exp_add]
      congr 1
      ring
    have h3 := Real.add_one_le_exp (-(k * (b - a)))
    have h4 := mul_le_mul_of_nonneg_left h3 (mul_nonneg h1 (Real.exp_pos (-(k * a))).le)
    rw [h2]
    nlinarith

theorem yield_mono {R : Rule} (hR : R.Sound) {a b : ℝ} (ha : 0 ≤ a) (hab : a ≤ b) : R.yieldAt a ≤ R.yieldAt b := by
  have h := tangent hR (ha.trans hab) ha
  have hm := modulus_nonneg hR (ha.trans hab)
  nlinarith [mul_nonneg hm (sub_nonneg.mpr hab)]

/-! ### The iteration -/

/-- What holds of every iterate of a return that starts at `eqps`. -/
structure Inv (P : Const) (vm eqps : ℝ) (flow t : M9) (s : Iterate) : Prop where
  plastic : 0 ≤ s.plastic
  eqps : s.eqps = eqps + s.plastic
  value : s.value = vm - 3 * P.shear * s.plastic - P.rule.yieldAt s.eqps
  nonneg : 0 ≤ s.value
  stress : s.stress.toMatrix = t.toMatrix - (Real.sqrt 6 * P.shear * s.plastic) • flow.toMatrix

theorem newton_ok {P : Const} (hR : P.rule.Sound) (hs : 0 < P.shear) {vm eqps : ℝ} (he : 0 ≤ eqps)
    {flow t : M9} {s : Iterate} (h : Inv P vm eqps flow t s) :
    ∃ s', newton P vm flow s = .ok s' ∧ Inv P vm eqps flow t s' ∧
      s'.plastic = s.plastic + s.value / (3 * P.shear + P.rule.modulus s.eqps) ∧
      s'.value ≤ s.value - 3 * P.shear * (s.value / (3 * P.shear + P.rule.modulus s.eqps)) := by
  have hse : 0 ≤ s.eqps := by rw [h.eqps]; linarith [h.plastic]
  have hm := modulus_nonneg hR hse
  have hpos : 0 < 3 * P.shear + P.rule.modulus s.eqps := by linarith
  have hd : 0 ≤ s.value / (3 * P.shear + P.rule.modulus s.eqps) := div_nonneg h.nonneg hpos.le
  have hmul : (3 * P.shear + P.rule.modulus s.eqps) * (s.value / (3 * P.shear + P.rule.modulus s.eqps)) =
      s.value := by
    field_simp
  have hn : newton P vm flow s = .ok
      { plastic := s.plastic + s.value / (3 * P.shear + P.rule.modulus s.eqps)
        eqps := s.eqps + s.value / (3 * P.shear + P.rule.modulus s.eqps)
        stress := addScaled s.stress
          (-(Real.sqrt 6 * P.shear * (s.value / (3 * P.shear + P.rule.modulus s.eqps)))) flow
        value := vm - 3 * P.shear * (s.plastic + s.value / (3 * P.shear + P.rule.modulus s.eqps)) -
          P.rule.yieldAt (s.eqps + s.value / (3 * P.shear + P.rule.modulus s.eqps)) } := by
    unfold newton
    rw [hardMod_eq hR hse]
    simp only [Outcome.ok_bind]
    rw [if_neg hpos.ne', hardened_eq hR (add_nonneg hse hd)]
    rfl
  generalize s.value / (3 * P.shear + P.rule.modulus s.eqps) = d at hd hmul hn
  refine ⟨_, hn, ?_, rfl, ?_⟩
  · constructor
    · exact add_nonneg h.plastic hd
    · show s.eqps + d = _
      rw [h.eqps]
      ring
    · rfl
    · show 0 ≤ vm - 3 * P.shear * (s.plastic + d) - P.rule.yieldAt (s.eqps + d)
      have := tangent hR hse (add_nonneg hse hd)
      rw [add_sub_cancel_left] at this
      have hv := h.value
      nlinarith
    · show (addScaled _ _ _).toMatrix = _
      rw [toMatrix_addScaled, h.stress]
      module
  · show vm - 3 * P.shear * (s.plastic + d) - P.rule.yieldAt (s.eqps + d) ≤ _
    have := yield_mono hR hse (b := s.eqps + d) (by linarith)
    have hv := h.value
    nlinarith

theorem iterate_done {P : Const} {vm : ℝ} {flow : M9} {n : Nat} {s : Iterate} (h : |s.value| ≤ tol P) :
    iterate P vm flow n s = .ok s := by
  unfold iterate
  rw [if_neg (not_lt.mpr h)]

theorem iterate_zero {P : Const} {vm : ℝ} {flow : M9} {s : Iterate} (h : tol P < |s.value|) :
    iterate P vm flow 0 s = .fail .terminate := by
  unfold iterate
  rw [if_pos h]

theorem iterate_succ {P : Const} {vm : ℝ} {flow : M9} {n : Nat} {s : Iterate} (h : tol P < |s.value|) :
    iterate P vm flow (n + 1) s = (newton P vm flow s >>= iterate P vm flow n) := by
  rw [iterate, if_pos h]

/-- The iteration ends properly or stops the program. -/
theorem iterate_cases {P : Const} (hR : P.rule.Sound) (hs : 0 < P.shear) {vm eqps : ℝ} (he : 0 ≤ eqps)
    {flow t : M9} : ∀ (n : Nat) (s : Iterate), Inv P vm eqps flow t s →
      iterate P vm flow n s = .fail .terminate ∨
      ∃ r, iterate P vm flow n s = .ok r ∧ Inv P vm eqps flow t r ∧ r.value ≤ tol P ∧ s.plastic ≤ r.plastic := by
  intro n
  induction n with
  | zero =>
    intro s h
    rcases le_or_gt |s.value| (tol P) with hv | hv
    · exact .inr ⟨s, iterate_done hv, h, (le_abs_self _).trans hv, le_refl _⟩
    · exact .inl (iterate_zero hv)
  | succ n ih =>
    intro s h
    rcases le_or_gt |s.value| (tol P) with hv | hv
    · exact .inr ⟨s, iterate_done hv, h, (le_abs_self _).trans hv, le_refl _⟩
    · obtain ⟨s', h1, h2, h3, -⟩ := newton_ok hR hs he h
      rw [iterate_succ hv, h1, Outcome.ok_bind]
      have hle : s.plastic ≤ s'.plastic := by
        rw [h3]
        have hse : 0 ≤ s.eqps := by rw [h.eqps]; linarith [h.plastic]
        have := div_nonneg h.nonneg (add_nonneg (by linarith) (modulus_nonneg hR hse) : 0 ≤ 3 * P.shear + P.rule.modulus s.eqps)
        linarith
      rcases ih s' h2 with h' | ⟨r, hr, hI, hv, hp⟩
      · exact .inl h'
      · exact .inr ⟨r, hr, hI, hv, hle.trans hp⟩

/-- The residual shrinks by a fixed factor in each pass. -/
theorem iterate_ok {P : Const} (hR : P.rule.Sound) (hs : 0 < P.shear) {vm eqps : ℝ} (he : 0 ≤ eqps)
    {flow t : M9} : ∀ (n : Nat) (s : Iterate), Inv P vm eqps flow t s →
      s.value * (P.rule.modulus eqps / (3 * P.shear + P.rule.modulus eqps)) ^ n ≤ tol P →
      ∃ r, iterate P vm flow n s = .ok r := by
  have hm := modulus_nonneg hR he
  have hpos : 0 < 3 * P.shear + P.rule.modulus eqps := by linarith
  intro n
  induction n with
  | zero =>
    intro s h hv
    rw [pow_zero, mul_one] at hv
    exact ⟨s, iterate_done (by rwa [abs_of_nonneg h.nonneg])⟩
  | succ n ih =>
    intro s h hv
    rcases le_or_gt |s.value| (tol P) with hv' | hv'
    · exact ⟨s, iterate_done hv'⟩
    · obtain ⟨s', h1, h2, -, h4⟩ := newton_ok hR hs he h
      rw [iterate_succ hv', h1, Outcome.ok_bind]
      refine ih s' h2 (le_trans ?_ hv)
      rw [pow_succ']
      have hse : eqps ≤ s.eqps := by rw [h.eqps]; linarith [h.plastic]
      have ha := modulus_anti hR he hse
      have hm' := modulus_nonneg hR (he.trans hse)
      have hpos' : 0 < 3 * P.shear + P.rule.modulus s.eqps := by linarith
      have h5 : s.value - 3 * P.shear * (s.value / (3 * P.shear + P.rule.modulus s.eqps)) =
          s.value * (P.rule.modulus s.eqps / (3 * P.shear + P.rule.modulus s.eqps)) := by
        field_simp
        ring
      have h6 : P.rule.modulus s.eqps / (3 * P.shear + P.rule.modulus s.eqps) ≤
          P.rule.modulus eqps / (3 * P.shear + P.rule.modulus eqps) := by
        rw [div_le_div_iff₀ hpos' hpos]
        nlinarith
      rw [h5] at h4
      have h7 := h4.trans (mul_le_mul_of_nonneg_left h6 h.nonneg)
      rw [← mul_assoc]
      exact mul_le_mul_of_nonneg_right h7 (pow_nonneg (div_nonneg hm hpos.le) n)

end Verif.Return
