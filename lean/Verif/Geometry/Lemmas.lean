import Verif.Geometry.Spec
import Mathlib.Analysis.Convex.StdSimplex
import Mathlib.Tactic.FieldSimp
import Mathlib.Tactic.LinearCombination
import Mathlib.Topology.Order.Compact

/-! Helper lemmas for the sphere tests. -/

noncomputable section

namespace Verif.Geometry

open Verif Verif.Mech

theorem dot_comm (a b : V3) : dot a b = dot b a := by unfold dot; ring

theorem dot_add_left (a b c : V3) : dot (a + b) c = dot a c + dot b c := by
  unfold dot; simp only [Pi.add_apply]; ring

theorem dot_add_right (a b c : V3) : dot a (b + c) = dot a b + dot a c := by
  unfold dot; simp only [Pi.add_apply]; ring

theorem dot_sub_left (a b c : V3) : dot (a - b) c = dot a c - dot b c := by
  unfold dot; simp only [Pi.sub_apply]; ring

theorem dot_sub_right (a b c : V3) : dot a (b - c) = dot a b - dot a c := by
  unfold dot; simp only [Pi.sub_apply]; ring

theorem dot_smul_left (k : ℝ) (a b : V3) : dot (k • a) b = k * dot a b := by
  unfold dot; simp only [Pi.smul_apply, smul_eq_mul]; ring

theorem dot_smul_right (k : ℝ) (a b : V3) : dot a (k • b) = k * dot a b := by
  unfold dot; simp only [Pi.smul_apply, smul_eq_mul]; ring

theorem dot_zero_left (b : V3) : dot 0 b = 0 := by
  unfold dot; simp only [Pi.zero_apply]; ring

theorem dot_self_nonneg (a : V3) : 0 ≤ dot a a := by
  unfold dot; nlinarith [mul_self_nonneg (a 0), mul_self_nonneg (a 1), mul_self_nonneg (a 2)]

theorem dot_self_eq_zero {a : V3} (h : dot a a = 0) : a = 0 := by
  unfold dot at h
  have h0 := mul_self_nonneg (a 0)
  have h1 := mul_self_nonneg (a 1)
  have h2 := mul_self_nonneg (a 2)
  funext i
  fin_cases i
  · show a 0 = 0
    exact mul_self_eq_zero.mp (by linarith)
  · show a 1 = 0
    exact mul_self_eq_zero.mp (by linarith)
  · show a 2 = 0
    exact mul_self_eq_zero.mp (by linarith)

/-- Lagrange's identity. -/
theorem lagrange (a b : V3) : dot a b ^ 2 + dot (cross a b) (cross a b) = dot a a * dot b b := by
  unfold dot cross
  simp only [Matrix.cons_val_zero, Matrix.cons_val_one, Matrix.cons_val]
  ring

theorem dot_sq_le (a b : V3) : dot a b ^ 2 ≤ dot a a * dot b b := by
  have := lagrange a b
  have := dot_self_nonneg (cross a b)
  linarith

theorem distance_sq (p q : V3) : ∑ i, (p i - q i) ^ 2 = dot (p - q) (p - q) := by
  rw [Fin.sum_univ_three]; unfold dot; simp only [Pi.sub_apply]; ring

theorem distance_lt {p q : V3} {r : ℝ} (hr : 0 ≤ r) :
    distance p q < r ↔ dot (p - q) (p - q) < r * r := by
  unfold distance
  rw [distance_sq]
  rcases hr.eq_or_lt with h | h
  · subst h
    constructor
    · intro h; exact absurd h (not_lt.mpr (Real.sqrt_nonneg _))
    · intro h; have := dot_self_nonneg (p - q); linarith
  · rw [Real.sqrt_lt' h, sq]

theorem le_distance {p q : V3} {r : ℝ} (hr : 0 ≤ r) :
    r ≤ distance p q ↔ r * r ≤ dot (p - q) (p - q) := by
  rw [← not_lt, distance_lt hr, not_lt]

theorem distance_le {p q : V3} {r : ℝ} (hr : 0 ≤ r) :
    distance p q ≤ r ↔ dot (p - q) (p - q) ≤ r * r := by
  unfold distance
  rw [distance_sq, Real.sqrt_le_left hr, sq]

theorem lt_distance {p q : V3} {r : ℝ} (hr : 0 ≤ r) :
    r < distance p q ↔ r * r < dot (p - q) (p - q) := by
  rw [← not_le, distance_le hr, not_le]

/-! ### Convex combinations -/

theorem hull_three {a b c p : V3} :
    Hull ![a, b, c] p ↔ ∃ u v w : ℝ, 0 ≤ u ∧ 0 ≤ v ∧ 0 ≤ w ∧ u + v + w = 1 ∧ p = u • a + v • b + w • c := by
  constructor
  · rintro ⟨w, hw, hs, hp⟩
    rw [Fin.sum_univ_three] at hs hp
    exact ⟨w 0, w 1, w 2, hw 0, hw 1, hw 2, hs, hp⟩
  · rintro ⟨u, v, w, hu, hv, hw, hs, hp⟩
    refine ⟨![u, v, w], ?_, ?_, ?_⟩
    · intro i; fin_cases i <;> assumption
    · rw [Fin.sum_univ_three]; exact hs
    · rw [Fin.sum_univ_three]; exact hp

theorem dot_sum_right {k : Nat} (a : V3) (w : Fin k → ℝ) (n : Fin k → V3) :
    dot a (∑ i, w i • n i) = ∑ i, w i * dot a (n i) := by
  unfold dot
  simp only [Finset.sum_apply, Pi.smul_apply, smul_eq_mul, Finset.mul_sum]
  rw [← Finset.sum_add_distrib, ← Finset.sum_add_distrib]
  refine Finset.sum_congr rfl fun i _ => ?_
  ring

/-- The convex combinations lie in every half space that contains the points. -/
theorem hull_halfspace {k : Nat} {n : Fin k → V3} {p a : V3} {m : ℝ} (h : Hull n p)
    (hn : ∀ i, m ≤ dot a (n i)) : m ≤ dot a p := by
  obtain ⟨w, hw, hs, rfl⟩ := h
  rw [dot_sum_right]
  calc m = ∑ i, w i * m := by rw [← Finset.sum_mul, hs, one_mul]
    _ ≤ _ := Finset.sum_le_sum fun i _ => mul_le_mul_of_nonneg_left (hn i) (hw i)

theorem hull_halfspace_lt {k : Nat} {n : Fin k → V3} {p a : V3} {m : ℝ} (h : Hull n p)
    (hn : ∀ i, dot a (n i) < m) : dot a p < m := by
  obtain ⟨w, hw, hs, rfl⟩ := h
  rw [dot_sum_right]
  have hm : m = ∑ i, w i * m := by rw [← Finset.sum_mul, hs, one_mul]
  rw [hm]
  refine Finset.sum_lt_sum (fun i _ => mul_le_mul_of_nonneg_left (hn i).le (hw i)) ?_
  by_contra hc
  push Not at hc
  have : ∀ i, w i = 0 := by
    intro i
    by_contra hi
    have hpos : 0 < w i := lt_of_le_of_ne (hw i) (Ne.symm hi)
    have := hc i (Finset.mem_univ i)
    have := mul_lt_mul_of_pos_left (hn i) hpos
    linarith
  rw [Finset.sum_eq_zero fun i _ => this i] at hs
  exact zero_ne_one hs

/-- The convex combinations lie in every ball around the origin that contains the points. -/
theorem hull_ball {k : Nat} {n : Fin k → V3} {p : V3} {rr : ℝ} (h : Hull n p)
    (hn : ∀ i, dot (n i) (n i) < rr) : dot p p < rr := by
  by_contra hc
  push Not at hc
  have : dot p p < dot p p := by
    refine hull_halfspace_lt h fun i => ?_
    have h1 := dot_sq_le p (n i)
    have h2 := dot_self_nonneg (n i)
    have h3 := hn i
    by_contra h4
    push Not at h4
    have h5 : dot p p * dot p p ≤ dot p (n i) ^ 2 := by
      rw [sq]; exact mul_self_le_mul_self (dot_self_nonneg p) h4
    have h6 : 0 < dot p p := by
      have := dot_self_nonneg (n i); linarith
    nlinarith
  exact lt_irrefl _ this

/-- Convex combinations keep their weights under translation. -/
theorem hull_sub {k : Nat} {n : Fin k → V3} {p : V3} (c : V3) (h : Hull n p) :
    Hull (fun i => n i - c) (p - c) := by
  obtain ⟨w, hw, hs, rfl⟩ := h
  refine ⟨w, hw, hs, ?_⟩
  simp only [smul_sub, Finset.sum_sub_distrib]
  rw [← Finset.sum_smul, hs, one_smul]

theorem hull_add {k : Nat} {n : Fin k → V3} {p : V3} (c : V3) (h : Hull (fun i => n i - c) p) :
    Hull n (p + c) := by
  obtain ⟨w, hw, hs, rfl⟩ := h
  refine ⟨w, hw, hs, ?_⟩
  simp only [smul_sub, Finset.sum_sub_distrib]
  rw [← Finset.sum_smul, hs, one_smul, sub_add_cancel]

theorem hull_node {k : Nat} (n : Fin k → V3) (i : Fin k) : Hull n (n i) := by
  classical
  refine ⟨fun j => if j = i then 1 else 0, fun j => ?_, ?_, ?_⟩
  · show (0 : ℝ) ≤ if j = i then 1 else 0
    split <;> norm_num
  · rw [Finset.sum_ite_eq' Finset.univ i]; simp
  · simp only [ite_smul, one_smul, zero_smul]
    rw [Finset.sum_ite_eq' Finset.univ i]; simp

theorem hull_convex {k : Nat} {n : Fin k → V3} {p q : V3} {t : ℝ} (hp : Hull n p) (hq : Hull n q)
    (h0 : 0 ≤ t) (h1 : t ≤ 1) : Hull n (p + t • (q - p)) := by
  obtain ⟨w, hw, hs, rfl⟩ := hp
  obtain ⟨v, hv, hs', rfl⟩ := hq
  refine ⟨fun i => (1 - t) * w i + t * v i, fun i => ?_, ?_, ?_⟩
  · have := mul_nonneg (sub_nonneg.mpr h1) (hw i)
    have := mul_nonneg h0 (hv i)
    show 0 ≤ (1 - t) * w i + t * v i
    linarith
  · rw [Finset.sum_add_distrib, ← Finset.mul_sum, ← Finset.mul_sum, hs, hs']; ring
  · simp only [add_smul, Finset.sum_add_distrib, mul_smul, ← Finset.smul_sum]
    rw [sub_smul, one_smul, smul_sub]
    abel

/-- The hull has a point next to a given point. -/
theorem hull_min {k : Nat} (n : Fin (k + 1) → V3) (c : V3) :
    ∃ q, Hull n q ∧ ∀ p, Hull n p → dot (q - c) (q - c) ≤ dot (p - c) (p - c) := by
  classical
  have hcont : ContinuousOn
      (fun w : Fin (k + 1) → ℝ => dot ((∑ i, w i • n i) - c) ((∑ i, w i • n i) - c))
      (stdSimplex ℝ (Fin (k + 1))) := by
    unfold dot
    simp only [Pi.sub_apply, Finset.sum_apply, Pi.smul_apply, smul_eq_mul]
    fun_prop
  have hne : (stdSimplex ℝ (Fin (k + 1))).Nonempty := ⟨_, ite_eq_mem_stdSimplex ℝ 0⟩
  obtain ⟨w, hwm, hmin⟩ := (isCompact_stdSimplex ℝ (Fin (k + 1))).exists_isMinOn hne hcont
  refine ⟨_, ⟨w, hwm.1, hwm.2, rfl⟩, ?_⟩
  rintro p ⟨v, hv, hvs, rfl⟩
  exact hmin (show v ∈ stdSimplex ℝ (Fin (k + 1)) from ⟨hv, hvs⟩)

/-- At the point of the hull next to `c` no node lies on the near side of the plane through it,
and the nodes with a weight lie on this plane. -/
theorem hull_optimal {k : Nat} {n : Fin k → V3} {c q : V3} {w : Fin k → ℝ} (hw : ∀ i, 0 ≤ w i)
    (hs : ∑ i, w i = 1) (hq : q = ∑ i, w i • n i)
    (hmin : ∀ p, Hull n p → dot (q - c) (q - c) ≤ dot (p - c) (p - c)) :
    ∀ i, 0 ≤ dot (q - c) (n i - q) ∧ w i * dot (q - c) (n i - q) = 0 := by
  have hH : Hull n q := ⟨w, hw, hs, hq⟩
  have hge : ∀ i, 0 ≤ dot (q - c) (n i - q) := by
    intro i
    by_contra hc
    push Not at hc
    have hb := dot_self_nonneg (n i - q)
    set α := dot (q - c) (n i - q) with hα
    set β := dot (n i - q) (n i - q) with hβ
    have hd : 0 < β - α := by linarith
    set t := -α / (β - α) with ht
    have ht0 : 0 < t := div_pos (by linarith) hd
    have ht1 : t ≤ 1 := by rw [ht, div_le_one hd]; linarith
    have hm := hmin _ (hull_convex hH (hull_node n i) ht0.le ht1)
    rw [show q + t • (n i - q) - c = (q - c) + t • (n i - q) by abel] at hm
    rw [dot_add_left, dot_add_right, dot_add_right, dot_smul_left, dot_smul_right,
      dot_smul_left, dot_smul_right, dot_comm (n i - q) (q - c), ← hα, ← hβ] at hm
    have htb : t * (β - α) = -α := by rw [ht]; field_simp
    have h2 : t * (2 * α + t * β) < 0 := by
      refine mul_neg_of_pos_of_neg ht0 ?_
      nlinarith
    linarith
  have hsum : ∑ i, w i * dot (q - c) (n i - q) = 0 := by
    have : ∑ i, w i * dot (q - c) (n i - q) =
        dot (q - c) (∑ i, w i • n i) - (∑ i, w i) * dot (q - c) q := by
      rw [dot_sum_right, Finset.sum_mul, ← Finset.sum_sub_distrib]
      refine Finset.sum_congr rfl fun i _ => ?_
      rw [dot_sub_right]; ring
    rw [this, ← hq, hs]; ring
  have hz := (Finset.sum_eq_zero_iff_of_nonneg fun i _ => mul_nonneg (hw i) (hge i)).mp hsum
  exact fun i => ⟨hge i, hz i (Finset.mem_univ i)⟩

/-- The point of the hull next to the origin, with its weights. -/
theorem hull_nearest {k : Nat} (n : Fin (k + 1) → V3) :
    ∃ w : Fin (k + 1) → ℝ, (∀ i, 0 ≤ w i) ∧ ∑ i, w i = 1 ∧
      ∀ p, p = ∑ i, w i • n i → ∀ i, 0 ≤ dot p (n i - p) ∧ w i * dot p (n i - p) = 0 := by
  obtain ⟨q, ⟨w, hw, hs, hq⟩, hmin⟩ := hull_min n 0
  refine ⟨w, hw, hs, ?_⟩
  rintro p hp
  rw [← hq] at hp
  subst hp
  have := hull_optimal hw hs hq hmin
  rw [sub_zero] at this
  exact this

end Verif.Geometry
