import Verif.Filter.Spec
import Mathlib.LinearAlgebra.Matrix.DotProduct
import Mathlib.Tactic.FieldSimp
import Mathlib.Tactic.LinearCombination
import Mathlib.Tactic.Linarith
import Mathlib.Tactic.NormNum

/-! Lemmas for C16. -/

noncomputable section

namespace Verif.Filter

open Verif Verif.Mech

theorem dot_eq (u w : V3) : dot u w = dotProduct u w := by
  simp [dot, dotProduct, Fin.sum_univ_three]

theorem v3_ext {u w : V3} (h0 : u 0 = w 0) (h1 : u 1 = w 1) (h2 : u 2 = w 2) : u = w := by
  funext i
  fin_cases i <;> assumption

theorem dblMax_gt : 1 < dblMax := by
  have h : (1 : ℝ) ≤ 2 ^ 971 := one_le_pow₀ (by norm_num)
  unfold dblMax
  generalize (2 : ℝ) ^ 971 = M at *
  norm_num
  linarith

theorem pointAt_eq (p q : V3) (t : ℝ) : pointAt p q t = p + t • (q - p) := by
  apply v3_ext <;> simp [pointAt]

theorem param_eq (tol : ℝ) (r0 n p q : V3) :
    param tol r0 n p q =
      if |dotProduct (q - p) n| < tol then dblMax else dotProduct (r0 - p) n / dotProduct (q - p) n := by
  simp [param, dotProduct, Fin.sum_univ_three]

theorem den_swap (n p q : V3) : dotProduct (p - q) n = - dotProduct (q - p) n := by
  simp only [dotProduct, Fin.sum_univ_three, Pi.sub_apply]; ring

theorem Crosses.symm {tol : ℝ} {n p q : V3} (h : Crosses tol n p q) : Crosses tol n q p := by
  unfold Crosses at *
  rwa [den_swap, abs_neg]

/-- Swapping the end points replaces `t` by `1 - t`. -/
theorem param_swap {tol : ℝ} (ht : 0 < tol) (r0 n p q : V3) (h : Crosses tol n p q) :
    param tol r0 n q p = 1 - param tol r0 n p q := by
  have hne : dotProduct (q - p) n ≠ 0 := by
    intro h0
    unfold Crosses at h
    rw [h0, abs_zero] at h
    linarith
  rw [param_eq, param_eq, if_neg (not_lt.mpr h), if_neg (not_lt.mpr h.symm), den_swap n p q]
  field_simp
  simp only [dotProduct, Fin.sum_univ_three, Pi.sub_apply]
  ring

theorem param_parallel {tol : ℝ} {r0 n p q : V3} (h : ¬ Crosses tol n p q) :
    param tol r0 n p q = dblMax := by
  rw [param_eq, if_pos (not_le.mp h)]

theorem pointAt_swap (p q : V3) (t : ℝ) : pointAt q p (1 - t) = pointAt p q t := by
  apply v3_ext <;> simp [pointAt] <;> ring

/-- On a crossing line, the parameter `t` is the one at which the plane is met. -/
theorem param_spec {tol : ℝ} (ht : 0 < tol) {r0 n p q : V3} (h : Crosses tol n p q) (s : ℝ) :
    dotProduct (p + s • (q - p) - r0) n = 0 ↔ s = param tol r0 n p q := by
  have hne : dotProduct (q - p) n ≠ 0 := by
    intro h0
    unfold Crosses at h
    rw [h0, abs_zero] at h
    linarith
  rw [param_eq, if_neg (not_lt.mpr h), eq_div_iff hne]
  simp only [dotProduct, Fin.sum_univ_three, Pi.sub_apply, Pi.add_apply, Pi.smul_apply, smul_eq_mul]
  constructor <;> intro e <;> linear_combination e

/-- A verdict computed from the crossing point only, and only for `t` within the segment, is symmetric. -/
theorem symm_of {tol : ℝ} (ht : 0 < tol) (r0 n : V3) (f : V3 → Outcome Bool) (p q : V3) :
    (if param tol r0 n p q < 0 ∨ param tol r0 n p q > 1 then Outcome.ok false
      else f (pointAt p q (param tol r0 n p q))) =
    (if param tol r0 n q p < 0 ∨ param tol r0 n q p > 1 then Outcome.ok false
      else f (pointAt q p (param tol r0 n q p))) := by
  by_cases h : Crosses tol n p q
  · rw [param_swap ht r0 n p q h, pointAt_swap]
    by_cases h1 : param tol r0 n p q < 0 ∨ param tol r0 n p q > 1
    · rw [if_pos h1, if_pos (by rcases h1 with h1 | h1 <;> [right; left] <;> linarith)]
    · rw [if_neg h1, if_neg]
      intro h2
      apply h1
      rcases h2 with h2 | h2 <;> [right; left] <;> linarith
  · have h' : ¬ Crosses tol n q p := fun h2 => h h2.symm
    rw [param_parallel h, param_parallel h']
    rw [if_pos (Or.inr dblMax_gt), if_pos (Or.inr dblMax_gt)]

/-- When the verdict holds: the segment crosses the plane at a point that satisfies the test. -/
theorem true_iff {tol : ℝ} (ht : 0 < tol) (r0 n : V3) (f : V3 → Outcome Bool) (p q : V3) :
    (if param tol r0 n p q < 0 ∨ param tol r0 n p q > 1 then Outcome.ok false
      else f (pointAt p q (param tol r0 n p q))) = .ok true ↔
    Crosses tol n p q ∧ Meets p q {X | dotProduct (X - r0) n = 0 ∧ f X = .ok true} := by
  by_cases h : Crosses tol n p q
  · constructor
    · intro he
      split at he
      · cases he
      · next h1 =>
        refine ⟨h, param tol r0 n p q, ?_, ?_, ?_, ?_⟩
        · by_contra hh; exact h1 (Or.inl (not_le.mp hh))
        · by_contra hh; exact h1 (Or.inr (not_le.mp hh))
        · exact (param_spec ht h _).mpr rfl
        · rw [← pointAt_eq]; exact he
    · rintro ⟨_, s, h0, h1, hs, hf⟩
      have hs' := (param_spec ht h s).mp hs
      rw [← hs', if_neg (by rintro (hh | hh) <;> linarith), pointAt_eq]
      exact hf
  · constructor
    · intro he
      rw [param_parallel h, if_pos (Or.inr dblMax_gt)] at he
      cases he
    · rintro ⟨h', _⟩
      exact absurd h' h

theorem plane_cuts_eq (P : FinitePlane) (p q : V3) :
    P.cuts p q = if param 1e-14 P.r0 P.n p q < 0 ∨ param 1e-14 P.r0 P.n p q > 1 then Outcome.ok false
      else P.bondIntersect (pointAt p q (param 1e-14 P.r0 P.n p q)) 1e-15 := by
  unfold FinitePlane.cuts
  by_cases h : param 1e-14 P.r0 P.n p q ≥ 0 ∧ param 1e-14 P.r0 P.n p q ≤ 1
  · simp only [if_pos h]
    rw [if_neg]
    rintro (hh | hh)
    · exact absurd h.1 (not_le.mpr hh)
    · exact absurd h.2 (not_le.mpr hh)
  · simp only [if_neg h]
    rw [if_pos]
    by_contra hh
    apply h
    rw [not_or] at hh
    exact ⟨not_lt.mp hh.1, not_lt.mp hh.2⟩

theorem bondIntersect_iff (P : FinitePlane) (ha : 0 < P.a) (hb : 0 < P.b) (X : V3) (tol : ℝ) :
    P.bondIntersect X tol = .ok true ↔
      (-tol < dot (X - P.r0) P.ua ∧ dot (X - P.r0) P.ua < P.a * (1 + tol) ∧
        -tol < dot (X - P.r0) P.ub ∧ dot (X - P.r0) P.ub < P.b * (1 + tol)) := by
  unfold FinitePlane.bondIntersect
  simp only [ha.ne', hb.ne', if_false, div_lt_iff₀ ha, div_lt_iff₀ hb]
  rw [mul_comm (1 + tol) P.a, mul_comm (1 + tol) P.b]
  split <;> try (split) <;> try (split) <;> try (split)
  all_goals simp_all

theorem unitNormal_ok {a b n : V3} (h : unitNormal a b = .ok n) :
    ∃ k : ℝ, k ≠ 0 ∧ n = k • cross a b ∧ cross a b ≠ 0 := by
  simp only [unitNormal] at h
  split at h
  · cases h
  · next h0 =>
    injection h with h
    refine ⟨_, inv_ne_zero h0, ?_, ?_⟩
    · rw [← h]
      apply v3_ext <;> simp [div_eq_inv_mul]
    · intro hz
      apply h0
      rw [hz]
      simp

theorem unitNormal_of {a b : V3} (h : cross a b ≠ 0) : ∃ n, unitNormal a b = .ok n := by
  simp only [unitNormal]
  split
  · next h0 =>
    exfalso
    apply h
    rw [Real.sqrt_eq_zero (add_nonneg (add_nonneg (mul_self_nonneg _) (mul_self_nonneg _)) (mul_self_nonneg _))] at h0
    apply v3_ext
    · simp only [Pi.zero_apply]; nlinarith [mul_self_nonneg (cross a b 0), mul_self_nonneg (cross a b 1), mul_self_nonneg (cross a b 2)]
    · simp only [Pi.zero_apply]; nlinarith [mul_self_nonneg (cross a b 0), mul_self_nonneg (cross a b 1), mul_self_nonneg (cross a b 2)]
    · simp only [Pi.zero_apply]; nlinarith [mul_self_nonneg (cross a b 0), mul_self_nonneg (cross a b 1), mul_self_nonneg (cross a b 2)]
  · exact ⟨_, rfl⟩

theorem gram_pos {a b : V3} (h : cross a b ≠ 0) :
    (a 0 * a 0 + a 1 * a 1 + a 2 * a 2) * (b 0 * b 0 + b 1 * b 1 + b 2 * b 2) -
      (a 0 * b 0 + a 1 * b 1 + a 2 * b 2) * (a 0 * b 0 + a 1 * b 1 + a 2 * b 2) ≠ 0 := by
  intro h0
  have h1 : (cross a b 0) * (cross a b 0) + (cross a b 1) * (cross a b 1) +
      (cross a b 2) * (cross a b 2) = 0 := by
    simp [cross]
    linear_combination h0
  apply h
  apply v3_ext
  · simp only [Pi.zero_apply]; nlinarith [mul_self_nonneg (cross a b 0), mul_self_nonneg (cross a b 1), mul_self_nonneg (cross a b 2)]
  · simp only [Pi.zero_apply]; nlinarith [mul_self_nonneg (cross a b 0), mul_self_nonneg (cross a b 1), mul_self_nonneg (cross a b 2)]
  · simp only [Pi.zero_apply]; nlinarith [mul_self_nonneg (cross a b 0), mul_self_nonneg (cross a b 1), mul_self_nonneg (cross a b 2)]

/-- The barycentric test, for a point in the plane of the triangle. -/
theorem bary_iff {tol : ℝ} {a b c : V3} (h : cross a b ≠ 0) (hc : dotProduct c (cross a b) = 0) :
    baryInside tol a b c = .ok true ↔
      ∃ s t : ℝ, c = s • a + t • b ∧ -tol < s ∧ -tol < t ∧ s + t < 1 + 2 * tol := by
  have hd := gram_pos h
  simp only [baryInside, if_neg hd]
  simp only [dotProduct, Fin.sum_univ_three, cross, Matrix.cons_val_zero, Matrix.cons_val_one,
    Matrix.cons_val_two, Matrix.head_cons, Matrix.tail_cons] at hc
  generalize hD : (a 0 * a 0 + a 1 * a 1 + a 2 * a 2) * (b 0 * b 0 + b 1 * b 1 + b 2 * b 2) -
      (a 0 * b 0 + a 1 * b 1 + a 2 * b 2) * (a 0 * b 0 + a 1 * b 1 + a 2 * b 2) = D at *
  constructor
  · intro he
    simp only [Outcome.ok.injEq, Bool.and_eq_true, decide_eq_true_eq] at he
    refine ⟨_, _, ?_, he.1.1, he.1.2, he.2⟩
    apply v3_ext <;>
    · simp only [Pi.add_apply, Pi.smul_apply, smul_eq_mul]
      field_simp
      rw [← hD]
      first
        | linear_combination (a 1 * b 2 - a 2 * b 1) * hc
        | linear_combination (a 2 * b 0 - a 0 * b 2) * hc
        | linear_combination (a 0 * b 1 - a 1 * b 0) * hc
  · rintro ⟨s, t, rfl, hs, ht, hst⟩
    simp only [Pi.add_apply, Pi.smul_apply, smul_eq_mul]
    have e1 : ((b 0 * b 0 + b 1 * b 1 + b 2 * b 2) *
        (a 0 * (s * a 0 + t * b 0) + a 1 * (s * a 1 + t * b 1) + a 2 * (s * a 2 + t * b 2)) -
        (a 0 * b 0 + a 1 * b 1 + a 2 * b 2) *
        (b 0 * (s * a 0 + t * b 0) + b 1 * (s * a 1 + t * b 1) + b 2 * (s * a 2 + t * b 2))) / D = s := by
      rw [div_eq_iff hd, ← hD]; ring
    have e2 : ((a 0 * a 0 + a 1 * a 1 + a 2 * a 2) *
        (b 0 * (s * a 0 + t * b 0) + b 1 * (s * a 1 + t * b 1) + b 2 * (s * a 2 + t * b 2)) -
        (a 0 * b 0 + a 1 * b 1 + a 2 * b 2) *
        (a 0 * (s * a 0 + t * b 0) + a 1 * (s * a 1 + t * b 1) + a 2 * (s * a 2 + t * b 2))) / D = t := by
      rw [div_eq_iff hd, ← hD]; ring
    simp only [Outcome.ok.injEq, Bool.and_eq_true, decide_eq_true_eq]
    rw [e1, e2]
    exact ⟨⟨hs, ht⟩, hst⟩

theorem cross_swap_ne {a b : V3} (h : cross a b ≠ 0) : cross b a ≠ 0 := by
  intro h0
  apply h
  have e : cross a b = - cross b a := by
    apply v3_ext <;> simp [cross] <;> ring
  rw [e, h0, neg_zero]

theorem cross_eq (a b : V3) : crossProduct a b = cross a b := by
  rw [cross_apply]
  rfl

/-- A unit vector normal to both edges measures distances like the normalised vector product. -/
theorem unit_abs {a b n m : V3} (hn : dotProduct n n = 1) (ha : dotProduct n a = 0) (hb : dotProduct n b = 0)
    (hm : unitNormal a b = .ok m) (d : V3) : |dotProduct d m| = |dotProduct d n| := by
  simp only [unitNormal] at hm
  split at hm
  · cases hm
  · next h0 =>
    injection hm with hm
    have hsq := Real.mul_self_sqrt (add_nonneg (add_nonneg (mul_self_nonneg (cross a b 0)) (mul_self_nonneg (cross a b 1))) (mul_self_nonneg (cross a b 2)))
    generalize hM : Real.sqrt (cross a b 0 * cross a b 0 + cross a b 1 * cross a b 1 + cross a b 2 * cross a b 2) = M at *
    have hdm : M * dotProduct d m = dotProduct d (cross a b) := by
      rw [← hm]
      simp only [dotProduct, Fin.sum_univ_three, Matrix.cons_val_zero, Matrix.cons_val_one, Matrix.cons_val]
      field_simp
    -- `|N|² n = (n·N) N`
    have key : M * M * dotProduct d n = dotProduct n (cross a b) * dotProduct d (cross a b) := by
      rw [hsq]
      simp only [dotProduct, Fin.sum_univ_three] at *
      simp only [cross, Matrix.cons_val_zero, Matrix.cons_val_one, Matrix.cons_val_two, Matrix.head_cons,
        Matrix.tail_cons]
      linear_combination (norm := ring_nf)
        (((b 0 * b 0 + b 1 * b 1 + b 2 * b 2) * (d 0 * a 0 + d 1 * a 1 + d 2 * a 2) -
          (a 0 * b 0 + a 1 * b 1 + a 2 * b 2) * (d 0 * b 0 + d 1 * b 1 + d 2 * b 2))) * ha +
        (((a 0 * a 0 + a 1 * a 1 + a 2 * a 2) * (d 0 * b 0 + d 1 * b 1 + d 2 * b 2) -
          (a 0 * b 0 + a 1 * b 1 + a 2 * b 2) * (d 0 * a 0 + d 1 * a 1 + d 2 * a 2))) * hb
    have key2 : M * M = dotProduct n (cross a b) * dotProduct n (cross a b) := by
      have hk : M * M * dotProduct n n = dotProduct n (cross a b) * dotProduct n (cross a b) := by
        rw [hsq]
        simp only [dotProduct, Fin.sum_univ_three] at *
        simp only [cross, Matrix.cons_val_zero, Matrix.cons_val_one, Matrix.cons_val_two, Matrix.head_cons,
          Matrix.tail_cons]
        linear_combination (norm := ring_nf)
          (((b 0 * b 0 + b 1 * b 1 + b 2 * b 2) * (n 0 * a 0 + n 1 * a 1 + n 2 * a 2) -
            (a 0 * b 0 + a 1 * b 1 + a 2 * b 2) * (n 0 * b 0 + n 1 * b 1 + n 2 * b 2))) * ha +
          (((a 0 * a 0 + a 1 * a 1 + a 2 * a 2) * (n 0 * b 0 + n 1 * b 1 + n 2 * b 2) -
            (a 0 * b 0 + a 1 * b 1 + a 2 * b 2) * (n 0 * a 0 + n 1 * a 1 + n 2 * a 2))) * hb
      rw [hn, mul_one] at hk
      exact hk
    rw [← hdm] at key
    have e : M * dotProduct d n = dotProduct n (cross a b) * dotProduct d m := by
      apply mul_left_cancel₀ h0
      linear_combination key
    have habs : |M| = |dotProduct n (cross a b)| := by
      rw [← sq_eq_sq_iff_abs_eq_abs]; linear_combination key2
    have e2 := congrArg abs e
    rw [abs_mul, abs_mul, ← habs] at e2
    exact (mul_left_cancel₀ (abs_ne_zero.mpr h0) e2).symm

/-- A vector of the plane with normal `N` is normal to `a × b` for any two independent `a`, `b` of it. -/
theorem perp_transfer {a b c N : V3} (hN : N ≠ 0) (ha : dotProduct N a = 0) (hb : dotProduct N b = 0)
    (h : cross a b ≠ 0) (hc : dotProduct c N = 0) : dotProduct c (cross a b) = 0 := by
  have key : ∀ d : V3, ((a 0 * a 0 + a 1 * a 1 + a 2 * a 2) * (b 0 * b 0 + b 1 * b 1 + b 2 * b 2) -
      (a 0 * b 0 + a 1 * b 1 + a 2 * b 2) * (a 0 * b 0 + a 1 * b 1 + a 2 * b 2)) * dotProduct d N =
      dotProduct N (cross a b) * dotProduct d (cross a b) := by
    intro d
    simp only [dotProduct, Fin.sum_univ_three] at *
    simp only [cross, Matrix.cons_val_zero, Matrix.cons_val_one, Matrix.cons_val_two, Matrix.head_cons,
      Matrix.tail_cons]
    linear_combination (norm := ring_nf)
      (((b 0 * b 0 + b 1 * b 1 + b 2 * b 2) * (d 0 * a 0 + d 1 * a 1 + d 2 * a 2) -
        (a 0 * b 0 + a 1 * b 1 + a 2 * b 2) * (d 0 * b 0 + d 1 * b 1 + d 2 * b 2))) * ha +
      (((a 0 * a 0 + a 1 * a 1 + a 2 * a 2) * (d 0 * b 0 + d 1 * b 1 + d 2 * b 2) -
        (a 0 * b 0 + a 1 * b 1 + a 2 * b 2) * (d 0 * a 0 + d 1 * a 1 + d 2 * a 2))) * hb
  have h1 := key c
  rw [hc, mul_zero] at h1
  rcases mul_eq_zero.mp h1.symm with h2 | h2
  · exfalso
    apply hN
    have h3 := key N
    rw [h2, zero_mul] at h3
    rcases mul_eq_zero.mp h3 with h4 | h4
    · exact absurd h4 (gram_pos h)
    · exact dotProduct_self_eq_zero.mp h4
  · exact h2

theorem plane_smul {k : ℝ} (hk : k ≠ 0) (c N : V3) : dotProduct c (k • N) = 0 ↔ dotProduct c N = 0 := by
  rw [dotProduct_smul, smul_eq_mul, mul_eq_zero]
  tauto

/-! ### The filter loop -/

theorem filterBonds_ok {f : BondFilter} {pt : V3} {i : Nat} {xO : Nat → V3} {tree : List Nat}
    {flags bs : List Bool} (h : f.filterBonds pt i xO tree flags = .ok bs) (hl : flags.length = tree.length) :
    bs.length = tree.length ∧
    ∀ (k uid : Nat), tree[k]? = some uid → (bs[k]? = some true ↔ flags[k]? = some true ∨
      (i = uid ∧ f.includeSelf = false) ∨ f.shape.cuts pt (xO uid) = .ok true) := by
  induction tree generalizing flags bs with
  | nil =>
    simp only [BondFilter.filterBonds, Outcome.ok.injEq] at h
    subst h
    refine ⟨hl, ?_⟩
    intro k uid hk
    simp at hk
  | cons u tree ih =>
    cases flags with
    | nil => simp at hl
    | cons b flags =>
      simp only [BondFilter.filterBonds] at h
      split at h
      · next b' hb' =>
        split at h
        · next bs' hbs' =>
          injection h with h
          subst h
          obtain ⟨h1, h2⟩ := ih hbs' (by simpa using hl)
          refine ⟨by simp [h1], ?_⟩
          intro k uid hk
          cases k with
          | zero =>
            simp only [List.getElem?_cons_zero, Option.some.injEq] at hk ⊢
            subst hk
            simp only [BondFilter.mark] at hb'
            split at hb'
            · next hs =>
              injection hb' with hb'
              simp [← hb', hs]
            · next hs =>
              split at hb'
              · next hc =>
                injection hb' with hb'
                simp [← hb', hc]
              · next hc =>
                injection hb' with hb'
                simp [← hb', hc, hs]
              · cases hb'
              · cases hb'
          | succ k =>
            simp only [List.getElem?_cons_succ] at hk ⊢
            exact h2 k uid hk
        · cases h
        · cases h
      · cases h
      · cases h

theorem runFilters_ok {fs : List BondFilter} {pt : V3} {i : Nat} {xO : Nat → V3} {tree : List Nat}
    {flags bs : List Bool} (h : runFilters fs pt i xO tree flags = .ok bs) (hl : flags.length = tree.length) :
    bs.length = tree.length ∧
    ∀ (k uid : Nat), tree[k]? = some uid → (bs[k]? = some true ↔ flags[k]? = some true ∨
      ∃ f ∈ fs, (i = uid ∧ f.includeSelf = false) ∨ f.shape.cuts pt (xO uid) = .ok true) := by
  induction fs generalizing flags with
  | nil =>
    simp only [runFilters, Outcome.ok.injEq] at h
    subst h
    exact ⟨hl, by simp⟩
  | cons f fs ih =>
    simp only [runFilters] at h
    split at h
    · next fl hfl =>
      obtain ⟨h1, h2⟩ := filterBonds_ok hfl hl
      obtain ⟨h3, h4⟩ := ih h h1
      refine ⟨h3, ?_⟩
      intro k uid hk
      rw [h4 k uid hk, h2 k uid hk]
      simp only [List.mem_cons, exists_eq_or_imp, or_assoc]
    · cases h
    · cases h

theorem filterBonds_total {f : BondFilter} {pt : V3} {i : Nat} {xO : Nat → V3} {tree : List Nat}
    {flags : List Bool} (hl : flags.length = tree.length)
    (ht : ∀ uid ∈ tree, i ≠ uid ∨ f.includeSelf = true → ∃ b, f.shape.cuts pt (xO uid) = .ok b) :
    ∃ bs, f.filterBonds pt i xO tree flags = .ok bs ∧ bs.length = tree.length := by
  induction tree generalizing flags with
  | nil => exact ⟨flags, by simp [BondFilter.filterBonds], hl⟩
  | cons u tree ih =>
    cases flags with
    | nil => simp at hl
    | cons b flags =>
      obtain ⟨bs, hbs, hlen⟩ := ih (flags := flags) (by simpa using hl) (fun uid hu => ht uid (List.mem_cons_of_mem _ hu))
      have hm : ∃ b', f.mark pt i xO u b = .ok b' := by
        simp only [BondFilter.mark]
        split
        · exact ⟨true, rfl⟩
        · next hs =>
          have hs' : i ≠ u ∨ f.includeSelf = true := by
            by_cases hiu : i = u
            · right
              by_contra hh
              exact hs ⟨hiu, by simpa using hh⟩
            · exact Or.inl hiu
          obtain ⟨b', hb'⟩ := ht u List.mem_cons_self hs'
          rw [hb']
          cases b' <;> exact ⟨_, rfl⟩
      obtain ⟨b', hb'⟩ := hm
      refine ⟨b' :: bs, ?_, by simp [hlen]⟩
      simp only [BondFilter.filterBonds, hb', hbs]

theorem runFilters_total {fs : List BondFilter} {pt : V3} {i : Nat} {xO : Nat → V3} {tree : List Nat}
    {flags : List Bool} (hl : flags.length = tree.length)
    (ht : ∀ f ∈ fs, ∀ uid ∈ tree, i ≠ uid ∨ f.includeSelf = true →
      ∃ b, f.shape.cuts pt (xO uid) = .ok b) :
    ∃ bs, runFilters fs pt i xO tree flags = .ok bs := by
  induction fs generalizing flags with
  | nil => exact ⟨flags, rfl⟩
  | cons f fs ih =>
    obtain ⟨bs, hbs, hlen⟩ := filterBonds_total hl (ht f List.mem_cons_self)
    obtain ⟨bs2, h2⟩ := ih hlen (fun g hg => ht g (List.mem_cons_of_mem _ hg))
    exact ⟨bs2, by simp only [runFilters, hbs, h2]⟩

end Verif.Filter
