import Verif.BondVolume.Lemmas

/-! # Volumes of bonds in a box (C238) -/

noncomputable section

namespace Verif.BondVolume

open Verif Verif.Neigh Verif.Mech Verif.Grid
open scoped Classical

/-- C238.  The volume of a bond is that of those of the 4096 equal parts of the neighbor's cell whose middle is within
the horizon of the point. -/
theorem C238_value (B : BoxCalc) (hh : 0 ≤ B.horizon) (P Q : V3) : B.volume P Q =
    (triples.filter fun a => away P (boxPart B.DX B.DY B.DZ Q a) < B.horizon).card * (B.DX * B.DY * B.DZ / 4096) := by
  have h := nested (fun x y z => if inside B.horizon P ![x, y, z] then B.DX / 16 * (B.DY / 16) * (B.DZ / 16) else 0)
    (Q 0) B.DX (Q 1) B.DY (Q 2) B.DZ
  rw [BoxCalc.volume]
  simp only [Spec.cellSize, parts] at h ⊢
  push_cast at h ⊢
  rw [h, ← Finset.sum_filter, Finset.sum_const, nsmul_eq_mul]
  congr 1
  · congr 2
    refine Finset.filter_congr fun a _ => ?_
    rw [← inside_iff hh]
    rfl
  · ring

/-- C238.  It is not negative and not larger than the volume of the cell. -/
theorem C238_bounds (B : BoxCalc) (hh : 0 ≤ B.horizon) (hx : 0 ≤ B.DX) (hy : 0 ≤ B.DY) (hz : 0 ≤ B.DZ) (P Q : V3) :
    0 ≤ B.volume P Q ∧ B.volume P Q ≤ B.cellVolume Q := by
  rw [C238_value B hh, BoxCalc.cellVolume]
  have h1 : ((triples.filter fun a => away P (boxPart B.DX B.DY B.DZ Q a) < B.horizon).card : ℝ) ≤ 4096 := by
    have := Finset.card_filter_le triples fun a => away P (boxPart B.DX B.DY B.DZ Q a) < B.horizon
    rw [card_triples] at this
    exact_mod_cast this
  have h0 : 0 ≤ B.DX * B.DY * B.DZ / 4096 := by positivity
  refine ⟨by positivity, ?_⟩
  nlinarith

/-- C238.  A neighbor whose cell is within the horizon has all its volume in the bond. -/
theorem C238_whole (B : BoxCalc) (hh : 0 ≤ B.horizon) (hx : 0 ≤ B.DX) (hy : 0 ≤ B.DY) (hz : 0 ≤ B.DZ) (P Q : V3)
    (h : ∀ q ∈ boxCell B.DX B.DY B.DZ Q, away P q < B.horizon) : B.volume P Q = B.DX * B.DY * B.DZ := by
  rw [C238_value B hh, Finset.filter_true_of_mem fun a ha => h _ (boxPart_mem hx hy hz Q ha), card_triples]
  push_cast
  ring

/-- C238.  A neighbor whose cell is outside the horizon has no volume in the bond. -/
theorem C238_none (B : BoxCalc) (hh : 0 ≤ B.horizon) (hx : 0 ≤ B.DX) (hy : 0 ≤ B.DY) (hz : 0 ≤ B.DZ) (P Q : V3)
    (h : ∀ q ∈ boxCell B.DX B.DY B.DZ Q, B.horizon ≤ away P q) : B.volume P Q = 0 := by
  rw [C238_value B hh, Finset.filter_false_of_mem fun a ha => not_lt.2 (h _ (boxPart_mem hx hy hz Q ha))]
  simp

/-- C238.  A bond has the same volume from both its ends. -/
theorem C238_symmetric (B : BoxCalc) (hh : 0 ≤ B.horizon) (P Q : V3) : B.volume P Q = B.volume Q P := by
  rw [C238_value B hh, C238_value B hh]
  congr 2
  refine Finset.card_bij (fun a _ => flip a) ?_ ?_ ?_
  · intro a ha
    rw [Finset.mem_filter] at ha ⊢
    exact ⟨flip_mem ha.1, by rw [away_flip _ _ _ P Q ha.1]; exact ha.2⟩
  · intro a ha b hb e
    rw [Finset.mem_filter] at ha hb
    rw [← flip_flip ha.1, e, flip_flip hb.1]
  · intro b hb
    rw [Finset.mem_filter] at hb
    refine ⟨flip b, ?_, flip_flip hb.1⟩
    rw [Finset.mem_filter]
    exact ⟨flip_mem hb.1, by rw [away_flip _ _ _ Q P hb.1]; exact hb.2⟩

/-- C238.  A larger horizon does not give a smaller volume. -/
theorem C238_monotone (B : BoxCalc) (h : ℝ) (hh : 0 ≤ B.horizon) (hle : B.horizon ≤ h) (hx : 0 ≤ B.DX) (hy : 0 ≤ B.DY)
    (hz : 0 ≤ B.DZ) (P Q : V3) : B.volume P Q ≤ BoxCalc.volume { B with horizon := h } P Q := by
  rw [C238_value B hh, C238_value { B with horizon := h } (hh.trans hle)]
  refine mul_le_mul_of_nonneg_right ?_ (by positivity)
  exact_mod_cast Finset.card_le_card (Finset.monotone_filter_right _ fun a _ ha => lt_of_lt_of_le ha hle)

/-- C238.  Only the position of the neighbor relative to the point matters. -/
theorem C238_moves (B : BoxCalc) (hh : 0 ≤ B.horizon) (P Q t : V3) : B.volume (P + t) (Q + t) = B.volume P Q := by
  rw [C238_value B hh, C238_value B hh]
  congr 2
  refine congrArg Finset.card (Finset.filter_congr fun a _ => ?_)
  have : away (P + t) (boxPart B.DX B.DY B.DZ (Q + t) a) = away P (boxPart B.DX B.DY B.DZ Q a) := by
    rw [away, away]
    congr 1
    simp only [boxPart, Pi.add_apply, Matrix.cons_val_zero, Matrix.cons_val_one, Matrix.cons_val]
    ring
  rw [this]

/-- The cells of a unit cube cut in ten parts along each side, and a horizon of a quarter: a neighbor one cell away. -/
example : (BoxCalc.ofSpecs ⟨10, 0, 1⟩ ⟨10, 0, 1⟩ ⟨10, 0, 1⟩ (1 / 4)).volume ![0, 0, 0] ![1 / 10, 0, 0] = 1 / 1000 ∧
    (BoxCalc.ofSpecs ⟨10, 0, 1⟩ ⟨10, 0, 1⟩ ⟨10, 0, 1⟩ (1 / 4)).volume ![0, 0, 0] ![3 / 10, 0, 0] = 0 := by
  set B := BoxCalc.ofSpecs ⟨10, 0, 1⟩ ⟨10, 0, 1⟩ ⟨10, 0, 1⟩ (1 / 4) with hB
  have e1 : B.DX = 1 / 10 := by norm_num [hB, BoxCalc.ofSpecs, Spec.cellSize]
  have e2 : B.DY = 1 / 10 := by norm_num [hB, BoxCalc.ofSpecs, Spec.cellSize]
  have e3 : B.DZ = 1 / 10 := by norm_num [hB, BoxCalc.ofSpecs, Spec.cellSize]
  have e4 : B.horizon = 1 / 4 := by norm_num [hB, BoxCalc.ofSpecs]
  refine ⟨?_, ?_⟩
  · rw [C238_whole B (by rw [e4]; norm_num) (by rw [e1]; norm_num) (by rw [e2]; norm_num) (by rw [e3]; norm_num), e1, e2, e3]
    · norm_num
    · rw [e1, e2, e3, e4]
      rintro q ⟨h1, h2, h3⟩
      simp only [Matrix.cons_val_zero, Matrix.cons_val_one, Matrix.cons_val, abs_le] at h1 h2 h3
      rw [away, Real.sqrt_lt (by positivity) (by norm_num)]
      simp only [Matrix.cons_val_zero, Matrix.cons_val_one, Matrix.cons_val]
      nlinarith
  · refine C238_none B (by rw [e4]; norm_num) (by rw [e1]; norm_num) (by rw [e2]; norm_num) (by rw [e3]; norm_num) _ _ ?_
    rw [e1, e2, e3, e4]
    rintro q ⟨h1, h2, h3⟩
    simp only [Matrix.cons_val_zero, abs_le] at h1
    rw [away, Real.le_sqrt (by norm_num) (by positivity)]
    simp only [Matrix.cons_val_zero, Matrix.cons_val_one, Matrix.cons_val]
    nlinarith [sq_nonneg (q 1 - 0), sq_nonneg (q 2 - 0)]

end Verif.BondVolume
