import Verif.BondVolume.Spec
import Verif.Grid.Lemmas
import Verif.Grid.CylinderLemmas
import Verif.Neigh.Lemmas

/-! # Volumes of bonds (helper lemmas) -/

noncomputable section

namespace Verif.BondVolume

open Verif Verif.Neigh Verif.Mech Verif.Grid
open scoped Classical

theorem foldl_add {α : Type} (f : α → ℝ) : ∀ (l : List α) (v : ℝ), l.foldl (fun v a => v + f a) v = v + (l.map f).sum
  | [], v => by simp
  | a :: l, v => by rw [List.foldl_cons, foldl_add f l, List.map_cons, List.sum_cons]; ring

theorem centersLoop_map (f : ℝ → ℝ) : ∀ (n : Nat) (p d : ℝ),
    ((centersLoop n p d).map f).sum = ∑ i ∈ Finset.range n, f (p + i * d)
  | 0, _, _ => by simp [centersLoop]
  | n + 1, p, d => by
    rw [centersLoop, List.map_cons, List.sum_cons, centersLoop_map f n, Finset.sum_range_succ']
    rw [add_comm]
    congr 1
    · refine Finset.sum_congr rfl fun i _ => ?_
      congr 1
      push_cast
      ring
    · simp

theorem centers_sum (f : ℝ → ℝ) (q D : ℝ) :
    (((⟨parts, q - D / 2, D⟩ : Spec).centers).map f).sum = ∑ i ∈ Finset.range 16, f (q + offset D i) := by
  rw [Spec.centers, centersLoop_map]
  refine Finset.sum_congr rfl fun i _ => ?_
  congr 1
  simp only [Spec.cellSize, offset, parts]
  push_cast
  ring

/-- The three nested loops. -/
theorem nested (f : ℝ → ℝ → ℝ → ℝ) (q1 D1 q2 D2 q3 D3 : ℝ) :
    (⟨parts, q1 - D1 / 2, D1⟩ : Spec).centers.foldl (fun v x =>
      (⟨parts, q2 - D2 / 2, D2⟩ : Spec).centers.foldl (fun v y =>
        (⟨parts, q3 - D3 / 2, D3⟩ : Spec).centers.foldl (fun v z => v + f x y z) v) v) 0 =
      ∑ a ∈ triples, f (q1 + offset D1 a.1) (q2 + offset D2 a.2.1) (q3 + offset D3 a.2.2) := by
  simp only [foldl_add, zero_add, centers_sum]
  rw [triples, Finset.sum_product]
  refine Finset.sum_congr rfl fun i _ => ?_
  rw [Finset.sum_product]

theorem inside_iff {radius : ℝ} (h : 0 ≤ radius) (p q : V3) : inside radius p q ↔ away p q < radius := by
  have e : inside radius p q ↔ (q 0 - p 0) * (q 0 - p 0) + (q 1 - p 1) * (q 1 - p 1) + (q 2 - p 2) * (q 2 - p 2) -
      radius * radius < 0 := Iff.rfl
  rw [e, away, Real.sqrt_lt (by positivity) h]
  constructor <;> intro H <;> nlinarith

theorem away_len (p q : V3) : away p q = len (q - p) := by
  rw [away, len]
  congr 1
  simp only [Pi.sub_apply]
  ring

theorem away_comm (p q : V3) : away p q = away q p := by
  rw [away, away]
  congr 1
  ring

theorem away_turn (phi : ℝ) (p q : V3) : away (turn phi p) (turn phi q) = away p q := by
  rw [away, away]
  congr 1
  simp only [turn, Matrix.cons_val_zero, Matrix.cons_val_one, Matrix.cons_val]
  have := Real.sin_sq_add_cos_sq phi
  linear_combination ((q 0 - p 0) ^ 2 + (q 1 - p 1) ^ 2) * this

theorem abs_offset {D : ℝ} (hD : 0 ≤ D) {i : Nat} (h : i < 16) : |offset D i| ≤ D / 2 := by
  have h' : (i : ℝ) ≤ 15 := by exact_mod_cast (by omega : i ≤ 15)
  have h0 : (0 : ℝ) ≤ i := by positivity
  rw [offset, abs_mul, abs_of_nonneg hD]
  have : |((i : ℝ) + 1 / 2) / 16 - 1 / 2| ≤ 1 / 2 := by
    rw [abs_le]
    constructor <;> linarith
  nlinarith

theorem offset_neg (D : ℝ) {i : Nat} (h : i < 16) : offset D (15 - i) = - offset D i := by
  rw [offset, offset, Nat.cast_sub (by omega)]
  push_cast
  ring

theorem boxPart_mem {DX DY DZ : ℝ} (hx : 0 ≤ DX) (hy : 0 ≤ DY) (hz : 0 ≤ DZ) (Q : V3) {a : Nat × Nat × Nat}
    (ha : a ∈ triples) : boxPart DX DY DZ Q a ∈ boxCell DX DY DZ Q := by
  simp only [triples, Finset.mem_product, Finset.mem_range] at ha
  refine ⟨?_, ?_, ?_⟩ <;> simp only [boxPart, Matrix.cons_val_zero, Matrix.cons_val_one, Matrix.cons_val, add_sub_cancel_left]
  · exact abs_offset hx ha.1
  · exact abs_offset hy ha.2.1
  · exact abs_offset hz ha.2.2

theorem card_triples : triples.card = 4096 := by
  simp [triples]

/-- Part `a` seen from the other side. -/
def flip (a : Nat × Nat × Nat) : Nat × Nat × Nat := (15 - a.1, 15 - a.2.1, 15 - a.2.2)

theorem flip_mem {a : Nat × Nat × Nat} (ha : a ∈ triples) : flip a ∈ triples := by
  simp only [triples, Finset.mem_product, Finset.mem_range, flip] at ha ⊢
  omega

theorem flip_flip {a : Nat × Nat × Nat} (ha : a ∈ triples) : flip (flip a) = a := by
  simp only [triples, Finset.mem_product, Finset.mem_range] at ha
  obtain ⟨i, j, k⟩ := a
  simp only [flip, Prod.mk.injEq] at ha ⊢
  omega

theorem away_flip (DX DY DZ : ℝ) (P Q : V3) {a : Nat × Nat × Nat} (ha : a ∈ triples) :
    away Q (boxPart DX DY DZ P (flip a)) = away P (boxPart DX DY DZ Q a) := by
  simp only [triples, Finset.mem_product, Finset.mem_range] at ha
  rw [away, away]
  congr 1
  simp only [boxPart, flip, offset_neg DX ha.1, offset_neg DY ha.2.1, offset_neg DZ ha.2.2, Matrix.cons_val_zero,
    Matrix.cons_val_one, Matrix.cons_val]
  ring

/-! ### Rings -/

theorem sum_offset (D : ℝ) : ∑ i ∈ Finset.range 16, offset D i = 0 := by
  simp only [offset, Finset.sum_range_succ, Finset.sum_range_zero]
  push_cast
  ring

/-- Horizontal distance of `Q` from the line through the center. -/
def radiusOf (c Q : V3) : ℝ := Real.sqrt ((Q 0 - c 0) ^ 2 + (Q 1 - c 1) ^ 2)

theorem cell_eq (R : RingCalc) (Q : V3) : R.cell Q =
    (⟨parts, radiusOf R.c Q - R.DR / 2, R.DR⟩, ⟨parts, Complex.arg ⟨Q 0 - R.c 0, Q 1 - R.c 1⟩ - R.Dtheta / 2, R.Dtheta⟩,
      ⟨parts, Q 2 - R.DZ / 2, R.DZ⟩) := by
  simp only [RingCalc.cell, len, radiusOf]
  simp
  ring_nf

end Verif.BondVolume
