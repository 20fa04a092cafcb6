import Verif.BondVolume.Lemmas

/-! # Volumes of bonds in a ring (C239) -/

noncomputable section

namespace Verif.BondVolume

open Verif Verif.Neigh Verif.Mech Verif.Grid
open scoped Classical

theorem volume_sum (R : RingCalc) (P Q : V3) : R.volume P Q = ∑ a ∈ triples,
    if inside R.horizon P (polar 0 (radiusOf R.c Q + offset R.DR a.1)
      (Complex.arg ⟨Q 0 - R.c 0, Q 1 - R.c 1⟩ + offset R.Dtheta a.2.1) (Q 2 + offset R.DZ a.2.2))
    then (radiusOf R.c Q + offset R.DR a.1) * (R.DR / 16) * (R.Dtheta / 16) * (R.DZ / 16) else 0 := by
  have h := nested (fun r t z => if inside R.horizon P ![r * Real.cos t, r * Real.sin t, z] then
    r * (R.DR / 16) * (R.Dtheta / 16) * (R.DZ / 16) else 0)
    (radiusOf R.c Q) R.DR (Complex.arg ⟨Q 0 - R.c 0, Q 1 - R.c 1⟩) R.Dtheta (Q 2) R.DZ
  rw [RingCalc.volume, cell_eq]
  simp only [Spec.cellSize, parts] at h ⊢
  push_cast at h ⊢
  rw [h]
  refine Finset.sum_congr rfl fun a _ => ?_
  simp only [polar, Pi.zero_apply, zero_add]

/-- `arg` is an angle of the point. -/
theorem arg_angle {c Q : V3} {r theta : ℝ} (hr : 0 < r) (h0 : Q 0 = c 0 + r * Real.cos theta)
    (h1 : Q 1 = c 1 + r * Real.sin theta) :
    radiusOf c Q = r ∧ Real.cos (Complex.arg ⟨Q 0 - c 0, Q 1 - c 1⟩) = Real.cos theta ∧
      Real.sin (Complex.arg ⟨Q 0 - c 0, Q 1 - c 1⟩) = Real.sin theta := by
  have hn : radiusOf c Q = r := by
    rw [radiusOf, h0, h1, show (c 0 + r * Real.cos theta - c 0) ^ 2 + (c 1 + r * Real.sin theta - c 1) ^ 2 = r ^ 2 by
      linear_combination r ^ 2 * Real.sin_sq_add_cos_sq theta]
    exact Real.sqrt_sq hr.le
  have hz : ‖(⟨Q 0 - c 0, Q 1 - c 1⟩ : ℂ)‖ = r := by
    rw [Complex.norm_eq_sqrt_sq_add_sq]
    exact hn
  refine ⟨hn, ?_, ?_⟩
  · rw [Complex.cos_arg (by rw [← norm_ne_zero_iff, hz]; exact hr.ne'), hz, h0]
    field_simp
    ring
  · rw [Complex.sin_arg, hz, h1]
    field_simp
    ring

theorem polar_arg {c Q : V3} {r theta : ℝ} (hr : 0 < r) (h0 : Q 0 = c 0 + r * Real.cos theta)
    (h1 : Q 1 = c 1 + r * Real.sin theta) (r' t z : ℝ) :
    polar 0 r' (Complex.arg ⟨Q 0 - c 0, Q 1 - c 1⟩ + t) z = polar 0 r' (theta + t) z := by
  obtain ⟨_, e1, e2⟩ := arg_angle hr h0 h1
  simp only [polar, Real.cos_add, Real.sin_add, e1, e2]

/-- C239.  What is computed for a neighbor with cylindrical coordinates `r`, `theta`, `z` about the center: the volume of those
of the 4096 parts of its cell whose middle, taken about the z axis, is within the horizon. -/
theorem C239_value_partial (R : RingCalc) (hh : 0 ≤ R.horizon) (P : V3) {r theta z : ℝ} (hr : 0 < r) :
    R.volume P (polar R.c r theta z) = ∑ a ∈ triples,
      if away P (polar 0 (r + offset R.DR a.1) (theta + offset R.Dtheta a.2.1) (z + offset R.DZ a.2.2)) < R.horizon
      then (r + offset R.DR a.1) * (R.DR / 16) * (R.Dtheta / 16) * (R.DZ / 16) else 0 := by
  have h0 : (polar R.c r theta z) 0 = R.c 0 + r * Real.cos theta := rfl
  have h1 : (polar R.c r theta z) 1 = R.c 1 + r * Real.sin theta := rfl
  rw [volume_sum, (arg_angle hr h0 h1).1]
  refine Finset.sum_congr rfl fun a _ => ?_
  rw [polar_arg hr h0 h1]
  simp only [inside_iff hh]
  rfl

theorem full_sum (DR Dt DZ r : ℝ) :
    ∑ a ∈ triples, (r + offset DR a.1) * (DR / 16) * (Dt / 16) * (DZ / 16) = r * DR * Dt * DZ := by
  rw [triples, Finset.sum_product]
  simp only [Finset.sum_const, Finset.card_product, Finset.card_range, nsmul_eq_mul]
  rw [← Finset.mul_sum, ← Finset.sum_mul, ← Finset.sum_mul, ← Finset.sum_mul, Finset.sum_add_distrib, sum_offset]
  simp only [Finset.sum_const, Finset.card_range, nsmul_eq_mul]
  push_cast
  ring

/-- C239.  The volume of a cell is exact: distance from the axis of the ring times the three sizes, which is the volume between
the two cylinders within the angle and the height. -/
theorem C239_cell_volume (R : RingCalc) {r theta z : ℝ} (hr : 0 < r) :
    R.cellVolume (polar R.c r theta z) =
      ((r + R.DR / 2) ^ 2 - (r - R.DR / 2) ^ 2) / 2 * R.Dtheta * R.DZ := by
  have h0 : (polar R.c r theta z) 0 = R.c 0 + r * Real.cos theta := rfl
  have h1 : (polar R.c r theta z) 1 = R.c 1 + r * Real.sin theta := rfl
  have h := nested (fun r _ _ => r * (R.DR / 16) * (R.Dtheta / 16) * (R.DZ / 16))
    (radiusOf R.c (polar R.c r theta z)) R.DR (Complex.arg ⟨polar R.c r theta z 0 - R.c 0, polar R.c r theta z 1 - R.c 1⟩)
    R.Dtheta (polar R.c r theta z 2) R.DZ
  rw [RingCalc.cellVolume, cell_eq]
  simp only [Spec.cellSize, parts] at h ⊢
  push_cast at h ⊢
  rw [h, full_sum, (arg_angle hr h0 h1).1]
  ring

theorem part_mem {DR Dt DZ : ℝ} (hR : 0 ≤ DR) (ht : 0 ≤ Dt) (hz : 0 ≤ DZ) (c : V3) (r theta z : ℝ) {a : Nat × Nat × Nat}
    (ha : a ∈ triples) : polar c (r + offset DR a.1) (theta + offset Dt a.2.1) (z + offset DZ a.2.2) ∈
      ringCell DR Dt DZ c r theta z := by
  simp only [triples, Finset.mem_product, Finset.mem_range] at ha
  refine ⟨_, _, _, ?_, ?_, ?_, rfl⟩ <;> rw [add_sub_cancel_left]
  · exact abs_offset hR ha.1
  · exact abs_offset ht ha.2.1
  · exact abs_offset hz ha.2.2

theorem polar_zero {c : V3} (h0 : c 0 = 0) (h1 : c 1 = 0) (r t z : ℝ) : polar c r t z = polar 0 r t z := by
  simp only [polar, h0, h1, Pi.zero_apply]

/-- C239.  The volume of a bond is not negative and not larger than that of the cell, if the cell does not reach over the axis. -/
theorem C239_bounds (R : RingCalc) (hh : 0 ≤ R.horizon) (hR : 0 ≤ R.DR) (ht : 0 ≤ R.Dtheta) (hz : 0 ≤ R.DZ) (P : V3)
    {r theta z : ℝ} (hr : 0 < r) (hd : R.DR / 2 ≤ r) :
    0 ≤ R.volume P (polar R.c r theta z) ∧
      R.volume P (polar R.c r theta z) ≤ R.cellVolume (polar R.c r theta z) := by
  have hpos : ∀ a ∈ triples, 0 ≤ (r + offset R.DR a.1) * (R.DR / 16) * (R.Dtheta / 16) * (R.DZ / 16) := by
    intro a ha
    simp only [triples, Finset.mem_product, Finset.mem_range] at ha
    have := (abs_le.1 (abs_offset hR ha.1)).1
    have : 0 ≤ r + offset R.DR a.1 := by linarith
    positivity
  rw [C239_value_partial R hh P hr, C239_cell_volume R hr]
  refine ⟨Finset.sum_nonneg fun a ha => ?_, ?_⟩
  · split_ifs
    · exact hpos a ha
    · exact le_refl 0
  · have e : ((r + R.DR / 2) ^ 2 - (r - R.DR / 2) ^ 2) / 2 * R.Dtheta * R.DZ = r * R.DR * R.Dtheta * R.DZ := by ring
    rw [e, ← full_sum]
    refine Finset.sum_le_sum fun a ha => ?_
    split_ifs
    · exact le_refl _
    · exact hpos a ha

/-- C239.  In a ring about the z axis a neighbor whose cell is within the horizon has all its volume in the bond. -/
theorem C239_whole_partial (R : RingCalc) (h0 : R.c 0 = 0) (h1 : R.c 1 = 0) (hh : 0 ≤ R.horizon) (hR : 0 ≤ R.DR)
    (ht : 0 ≤ R.Dtheta) (hz : 0 ≤ R.DZ) (P : V3) {r theta z : ℝ} (hr : 0 < r)
    (h : ∀ q ∈ ringCell R.DR R.Dtheta R.DZ R.c r theta z, away P q < R.horizon) :
    R.volume P (polar R.c r theta z) = R.cellVolume (polar R.c r theta z) := by
  rw [C239_value_partial R hh P hr, C239_cell_volume R hr,
    show ((r + R.DR / 2) ^ 2 - (r - R.DR / 2) ^ 2) / 2 * R.Dtheta * R.DZ = r * R.DR * R.Dtheta * R.DZ by ring, ← full_sum]
  refine Finset.sum_congr rfl fun a ha => ?_
  rw [if_pos]
  rw [← polar_zero h0 h1]
  exact h _ (part_mem hR ht hz R.c r theta z ha)

/-- C239.  In a ring about the z axis a neighbor whose cell is outside the horizon has no volume in the bond. -/
theorem C239_none_partial (R : RingCalc) (h0 : R.c 0 = 0) (h1 : R.c 1 = 0) (hh : 0 ≤ R.horizon) (hR : 0 ≤ R.DR)
    (ht : 0 ≤ R.Dtheta) (hz : 0 ≤ R.DZ) (P : V3) {r theta z : ℝ} (hr : 0 < r)
    (h : ∀ q ∈ ringCell R.DR R.Dtheta R.DZ R.c r theta z, R.horizon ≤ away P q) :
    R.volume P (polar R.c r theta z) = 0 := by
  rw [C239_value_partial R hh P hr]
  refine Finset.sum_eq_zero fun a ha => ?_
  rw [if_neg]
  rw [← polar_zero h0 h1, not_lt]
  exact h _ (part_mem hR ht hz R.c r theta z ha)

theorem turn_polar (phi r t z : ℝ) : turn phi (polar 0 r t z) = polar 0 r (t + phi) z := by
  simp only [turn, polar, Real.cos_add, Real.sin_add, Pi.zero_apply, Matrix.cons_val_zero, Matrix.cons_val_one, Matrix.cons_val]
  ext i
  fin_cases i <;> simp <;> ring

/-- C239.  In a ring about the z axis the volume of a bond does not change when both its points turn about the axis. -/
theorem C239_turns_partial (R : RingCalc) (h0 : R.c 0 = 0) (h1 : R.c 1 = 0) (hh : 0 ≤ R.horizon) (P : V3) {r theta z : ℝ}
    (hr : 0 < r) (phi : ℝ) :
    R.volume (turn phi P) (turn phi (polar R.c r theta z)) = R.volume P (polar R.c r theta z) := by
  rw [polar_zero h0 h1, turn_polar, ← polar_zero h0 h1, ← polar_zero h0 h1, C239_value_partial R hh _ hr,
    C239_value_partial R hh _ hr]
  refine Finset.sum_congr rfl fun a _ => ?_
  rw [show theta + phi + offset R.Dtheta a.2.1 = theta + offset R.Dtheta a.2.1 + phi by ring, ← turn_polar, away_turn]

/-- C239.  A larger horizon does not give a smaller volume. -/
theorem C239_monotone (R : RingCalc) (h : ℝ) (hh : 0 ≤ R.horizon) (hle : R.horizon ≤ h) (hR : 0 ≤ R.DR) (ht : 0 ≤ R.Dtheta)
    (hz : 0 ≤ R.DZ) (P : V3) {r theta z : ℝ} (hr : 0 < r) (hd : R.DR / 2 ≤ r) :
    R.volume P (polar R.c r theta z) ≤ RingCalc.volume { R with horizon := h } P (polar R.c r theta z) := by
  rw [C239_value_partial R hh P hr, C239_value_partial { R with horizon := h } (hh.trans hle) P hr]
  refine Finset.sum_le_sum fun a ha => ?_
  have hpos : 0 ≤ (r + offset R.DR a.1) * (R.DR / 16) * (R.Dtheta / 16) * (R.DZ / 16) := by
    simp only [triples, Finset.mem_product, Finset.mem_range] at ha
    have := (abs_le.1 (abs_offset hR ha.1)).1
    have : 0 ≤ r + offset R.DR a.1 := by linarith
    positivity
  split_ifs with c1 c2 c2
  · exact le_refl _
  · exact absurd (c1.trans_le hle) c2
  · exact hpos
  · exact le_refl _

/-- A ring of cells about the line through (10, 0, 0), each a tenth of the unit in all directions. -/
def faraway : RingCalc := ⟨1 / 10, 1 / 10, 1 / 10, ![10, 0, 0], 1⟩

/-- C239 is false for a ring about another line: the point itself as its neighbor, with a cell much smaller than the horizon, gets no
volume. -/
theorem C239_center : (∀ q ∈ ringCell faraway.DR faraway.Dtheta faraway.DZ faraway.c 1 0 0,
      away (polar faraway.c 1 0 0) q < faraway.horizon) ∧
    faraway.volume (polar faraway.c 1 0 0) (polar faraway.c 1 0 0) = 0 ∧
    0 < faraway.cellVolume (polar faraway.c 1 0 0) := by
  refine ⟨?_, ?_, ?_⟩
  · rintro q ⟨r, t, z, h1, h2, h3, rfl⟩
    simp only [faraway, abs_le] at h1 h2 h3
    rw [away, Real.sqrt_lt (by positivity) (by norm_num [faraway])]
    simp only [polar, faraway, Matrix.cons_val_zero, Matrix.cons_val_one, Matrix.cons_val, Real.cos_zero, Real.sin_zero]
    have hc : 1 - t ^ 2 / 2 ≤ Real.cos t := Real.one_sub_sq_div_two_le_cos
    have e : (10 + r * Real.cos t - (10 + 1 * 1)) ^ 2 + (0 + r * Real.sin t - (0 + 1 * 0)) ^ 2 + (z - 0) ^ 2 =
        (r - 1) ^ 2 + 2 * r * (1 - Real.cos t) + z ^ 2 := by
      linear_combination r ^ 2 * Real.sin_sq_add_cos_sq t
    rw [e]
    have ht : t ^ 2 ≤ 1 / 400 := by nlinarith
    have h4 : 1 - Real.cos t ≤ 1 / 800 := by linarith
    have h5 : 0 ≤ 1 - Real.cos t := by linarith [Real.cos_le_one t]
    nlinarith
  · rw [C239_value_partial faraway (by norm_num [faraway]) _ (by norm_num)]
    refine Finset.sum_eq_zero fun a ha => ?_
    rw [if_neg]
    rw [not_lt]
    simp only [triples, Finset.mem_product, Finset.mem_range] at ha
    have h1 := abs_le.1 (abs_offset (D := faraway.DR) (by norm_num [faraway]) ha.1)
    rw [show faraway.DR = 1 / 10 from rfl] at h1 ⊢
    rw [away, Real.le_sqrt (by norm_num [faraway]) (by positivity)]
    simp only [polar, faraway, Matrix.cons_val_zero, Matrix.cons_val_one, Matrix.cons_val, Real.cos_zero, Real.sin_zero,
      Pi.zero_apply]
    set t := 0 + offset (1 / 10) a.2.1
    have hc := Real.cos_le_one t
    have hc' := Real.neg_one_le_cos t
    set d := offset (1 / 10) a.1
    have h2 : (1 + d) * Real.cos t ≤ 1 + d := by nlinarith
    nlinarith [sq_nonneg (0 + (1 + d) * Real.sin t - (0 + 1 * 0)), sq_nonneg (0 + offset (1 / 10) a.2.2 - 0)]
  · rw [C239_cell_volume faraway (by norm_num)]
    norm_num [faraway]

/-- The same ring about the z axis: all the volume of the cell. -/
example : RingCalc.volume { faraway with c := 0 } (polar 0 1 0 0) (polar 0 1 0 0) =
    RingCalc.cellVolume { faraway with c := 0 } (polar 0 1 0 0) := by
  refine C239_whole_partial { faraway with c := 0 } rfl rfl (by norm_num [faraway]) (by norm_num [faraway]) (by norm_num [faraway])
    (by norm_num [faraway]) _ (by norm_num) ?_
  rintro q ⟨r, t, z, h1, h2, h3, rfl⟩
  simp only [faraway, abs_le] at h1 h2 h3
  rw [away, Real.sqrt_lt (by positivity) (by norm_num [faraway])]
  simp only [polar, faraway, Matrix.cons_val_zero, Matrix.cons_val_one, Matrix.cons_val, Real.cos_zero, Real.sin_zero,
    Pi.zero_apply]
  have hc : 1 - t ^ 2 / 2 ≤ Real.cos t := Real.one_sub_sq_div_two_le_cos
  have e : (0 + r * Real.cos t - (0 + 1 * 1)) ^ 2 + (0 + r * Real.sin t - (0 + 1 * 0)) ^ 2 + (z - 0) ^ 2 =
      (r - 1) ^ 2 + 2 * r * (1 - Real.cos t) + z ^ 2 := by
    linear_combination r ^ 2 * Real.sin_sq_add_cos_sq t
  rw [e]
  have ht : t ^ 2 ≤ 1 / 400 := by nlinarith
  have h4 : 1 - Real.cos t ≤ 1 / 800 := by linarith
  have h5 : 0 ≤ 1 - Real.cos t := by linarith [Real.cos_le_one t]
  nlinarith

end Verif.BondVolume
