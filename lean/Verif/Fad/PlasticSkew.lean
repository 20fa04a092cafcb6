import Verif.Fad.PlasticSym

/-! By how much the tangent of a neighborhood of the elastic-plastic material fails to be symmetric. -/

noncomputable section

namespace Verif.Fad

open Verif Verif.Neigh Verif.Mech Verif.Tangent Verif.Energy Verif.Lps
open scoped Classical Topology Matrix

theorem sum_minus (l : List Bond) (f g : Bond → ℝ) : (l.map fun b => f b - g b).sum = (l.map f).sum - (l.map g).sum := by
  induction l with
  | nil => simp
  | cons b l ih => simp only [List.map_cons, List.sum_cons]; rw [ih]; ring

/-- The trial state in the direction of the rates of extension. -/
def trialWork (C : Config) (edp : Nat → ℝ) (th : ℝ) (nbs : List (List Nat)) (d : Nat → V3) : ℝ :=
  ((bondsOf nbs).map fun b => (1 - C.damage b.b) * C.v b.j * trialOf C edp th b * rate C d b).sum

/-- The trial state in the direction of a uniform expansion. -/
def trialMean (C : Config) (edp : Nat → ℝ) (th : ℝ) (nbs : List (List Nat)) : ℝ :=
  ((bondsOf nbs).map fun b => (1 - C.damage b.b) * C.v b.j * trialOf C edp th b * C.zeta b).sum

/-- Bonds are intact or broken, and the influence function is one. -/
def Plain (C : Config) (nbs : List (List Nat)) : Prop :=
  ∀ b ∈ bondsOf nbs, (C.damage b.b = 0 ∨ C.damage b.b = 1) ∧ C.om b = 1

theorem plasticForm_eq {C : Config} {P : PlasticConst} {edp : Nat → ℝ} {yv : ℝ} {norm : Option ℝ} {n : Nat} (hp : Plain C (hoodNbs n))
    (hm : C.m 0 ≠ 0) (hY : ∀ b ∈ bondsOf (hoodNbs n), C.dY b ≠ 0) (w d : Nat → V3) :
    plasticForm C P edp yv norm (hoodNbs n) w d = -(C.v 0 * P.K * thetaRate C (hoodNbs n) d 0 * thetaRate C (hoodNbs n) w 0 +
      C.v 0 * ((bondsOf (hoodNbs n)).map fun b => (1 - C.damage b.b) * C.v b.j * rate C w b * tdRate yv (15 * P.mu / C.m 0) norm
        (trialOf C edp (theta' C (hoodNbs n) 0) b) (trialRate C (hoodNbs n) d b)
        (normRate C edp (15 * P.mu / C.m 0) (theta' C (hoodNbs n) 0) (hoodNbs n) d)).sum +
      ((bondsOf (hoodNbs n)).map fun b => C.v 0 * C.v b.j * (tensionOf C P edp yv (theta' C (hoodNbs n) 0) norm b / C.dY b) *
          ((w b.j - w b.i) ⬝ᵥ (d b.j - d b.i) - rate C d b * rate C w b)).sum) := by
  unfold plasticForm
  have hth : C.v 0 * P.K * thetaRate C (hoodNbs n) d 0 * thetaRate C (hoodNbs n) w 0 =
      ((bondsOf (hoodNbs n)).map fun b => C.v 0 * P.K * thetaRate C (hoodNbs n) d 0 *
        (3 * kap C b * C.zeta b * rate C w b / C.m 0)).sum := by
    rw [sum_scale]
    congr 1
    unfold thetaRate bondsAt
    rw [filter_hood]
  rw [hth, ← sum_scale, ← List.sum_map_add, ← List.sum_map_add]
  congr 1
  apply sum_congr'
  intro b hb
  obtain ⟨hi, _⟩ := hood_bond hb
  obtain ⟨hdm, hom⟩ := hp b hb
  have hYb := hY b hb
  have hw : (w b.j - w b.i) ⬝ᵥ C.yd b = rate C w b * C.dY b := by
    unfold rate
    rw [dotProduct_comm]
    field_simp
  unfold plasticForceRate
  rw [dotProduct_add, dotProduct_smul, dotProduct_smul, smul_eq_mul, smul_eq_mul, hw]
  unfold plasticTensionRate kap
  rw [hi, hom]
  generalize tdRate _ _ _ _ _ _ = T
  generalize tensionOf _ _ _ _ _ _ _ = N
  rcases hdm with hdm | hdm
  · rw [hdm]
    field_simp
    ring
  · rw [hdm]
    field_simp
    ring

theorem thetaRate_hood {C : Config} {n : Nat} (hp : Plain C (hoodNbs n)) (hm : C.m 0 ≠ 0) (d : Nat → V3) :
    ((bondsOf (hoodNbs n)).map fun b => (1 - C.damage b.b) * C.v b.j * C.zeta b * rate C d b).sum =
      C.m 0 * thetaRate C (hoodNbs n) d 0 / 3 := by
  unfold thetaRate bondsAt
  rw [filter_hood, mul_div_assoc, div_eq_mul_inv, ← List.sum_map_mul_right, ← sum_scale]
  apply sum_congr'
  intro b hb
  unfold kap
  rw [(hp b hb).2]
  field_simp

theorem rates_sum {C : Config} {n : Nat} (hp : Plain C (hoodNbs n)) (hm : C.m 0 ≠ 0) (w d : Nat → V3) :
    ((bondsOf (hoodNbs n)).map fun b => (1 - C.damage b.b) * C.v b.j * rate C w b * trialRate C (hoodNbs n) d b).sum =
      ((bondsOf (hoodNbs n)).map fun b => (1 - C.damage b.b) * C.v b.j * (rate C w b * rate C d b)).sum -
      C.m 0 * thetaRate C (hoodNbs n) d 0 * thetaRate C (hoodNbs n) w 0 / 9 := by
  have h := thetaRate_hood hp hm w
  have : C.m 0 * thetaRate C (hoodNbs n) d 0 * thetaRate C (hoodNbs n) w 0 / 9 =
      thetaRate C (hoodNbs n) d 0 / 3 * (C.m 0 * thetaRate C (hoodNbs n) w 0 / 3) := by ring
  rw [this, ← h]
  unfold trialRate
  generalize thetaRate C (hoodNbs n) d 0 = t
  induction bondsOf (hoodNbs n) with
  | nil => simp
  | cons b l ih =>
    simp only [List.map_cons, List.sum_cons]
    rw [ih]
    ring

theorem normRate_eq {C : Config} {edp : Nat → ℝ} {alpha th : ℝ} {nbs : List (List Nat)} (hp : Plain C nbs) (d : Nat → V3) :
    normRate C edp alpha th nbs d = 2 * alpha ^ 2 * (trialWork C edp th nbs d - thetaRate C nbs d 0 / 3 * trialMean C edp th nbs) := by
  unfold normRate trialWork trialMean trialRate
  generalize thetaRate C nbs d 0 = t
  rw [← sum_scale, ← sum_minus, ← sum_scale]
  apply sum_congr'
  intro b hb
  rcases (hp b hb).1 with h | h
  · rw [h]
    ring
  · rw [h]
    ring

/-- The skew part of the form. -/
theorem plasticForm_skew {C : Config} {P : PlasticConst} {edp : Nat → ℝ} {yv : ℝ} {norm : Option ℝ} {n : Nat} (hp : Plain C (hoodNbs n))
    (hm : C.m 0 ≠ 0) (hY : ∀ b ∈ bondsOf (hoodNbs n), C.dY b ≠ 0) (hn : ∀ q, norm = some q → q ≠ 0) (w d : Nat → V3) :
    plasticForm C P edp yv norm (hoodNbs n) w d - plasticForm C P edp yv norm (hoodNbs n) d w =
      match norm with
      | none => 0
      | some q => C.v 0 * Real.sqrt (2 * yv) * (15 * P.mu / C.m 0) ^ 3 / q ^ 3 * (trialMean C edp (theta' C (hoodNbs n) 0) (hoodNbs n) / 3) *
          (thetaRate C (hoodNbs n) w 0 * trialWork C edp (theta' C (hoodNbs n) 0) (hoodNbs n) d -
            thetaRate C (hoodNbs n) d 0 * trialWork C edp (theta' C (hoodNbs n) 0) (hoodNbs n) w) := by
  rw [plasticForm_eq hp hm hY, plasticForm_eq hp hm hY]
  have hlast : ((bondsOf (hoodNbs n)).map fun b => C.v 0 * C.v b.j * (tensionOf C P edp yv (theta' C (hoodNbs n) 0) norm b / C.dY b) *
          ((w b.j - w b.i) ⬝ᵥ (d b.j - d b.i) - rate C d b * rate C w b)).sum =
      ((bondsOf (hoodNbs n)).map fun b => C.v 0 * C.v b.j * (tensionOf C P edp yv (theta' C (hoodNbs n) 0) norm b / C.dY b) *
          ((d b.j - d b.i) ⬝ᵥ (w b.j - w b.i) - rate C w b * rate C d b)).sum := by
    apply sum_congr'
    intro b _
    rw [dotProduct_comm (w b.j - w b.i), mul_comm (rate C d b)]
  have hsym : ((bondsOf (hoodNbs n)).map fun b => (1 - C.damage b.b) * C.v b.j * (rate C w b * rate C d b)).sum =
      ((bondsOf (hoodNbs n)).map fun b => (1 - C.damage b.b) * C.v b.j * (rate C d b * rate C w b)).sum := by
    apply sum_congr'
    intro b _
    rw [mul_comm (rate C d b)]
  have key : ∀ w d : Nat → V3, ((bondsOf (hoodNbs n)).map fun b => (1 - C.damage b.b) * C.v b.j * rate C w b *
      tdRate yv (15 * P.mu / C.m 0) norm (trialOf C edp (theta' C (hoodNbs n) 0) b) (trialRate C (hoodNbs n) d b)
        (normRate C edp (15 * P.mu / C.m 0) (theta' C (hoodNbs n) 0) (hoodNbs n) d)).sum =
      match norm with
      | none => 15 * P.mu / C.m 0 * (((bondsOf (hoodNbs n)).map fun b => (1 - C.damage b.b) * C.v b.j * (rate C w b * rate C d b)).sum -
          C.m 0 * thetaRate C (hoodNbs n) d 0 * thetaRate C (hoodNbs n) w 0 / 9)
      | some q => Real.sqrt (2 * yv) * (15 * P.mu / C.m 0) * ((((bondsOf (hoodNbs n)).map fun b => (1 - C.damage b.b) * C.v b.j *
          (rate C w b * rate C d b)).sum - C.m 0 * thetaRate C (hoodNbs n) d 0 * thetaRate C (hoodNbs n) w 0 / 9) / q -
          2 * (15 * P.mu / C.m 0) ^ 2 * (trialWork C edp (theta' C (hoodNbs n) 0) (hoodNbs n) d - thetaRate C (hoodNbs n) d 0 / 3 *
            trialMean C edp (theta' C (hoodNbs n) 0) (hoodNbs n)) / (2 * q) / q ^ 2 *
            trialWork C edp (theta' C (hoodNbs n) 0) (hoodNbs n) w) := by
    intro w d
    rw [normRate_eq hp, ← rates_sum hp hm]
    cases norm with
    | none =>
      simp only [tdRate]
      rw [← sum_scale]
      apply sum_congr'
      intro b _
      ring
    | some q =>
      simp only [tdRate]
      generalize trialWork C edp (theta' C (hoodNbs n) 0) (hoodNbs n) d - _ = W
      unfold trialWork
      rw [div_eq_mul_inv _ q, mul_comm _ q⁻¹, ← sum_scale, ← sum_scale, ← sum_minus, ← sum_scale]
      apply sum_congr'
      intro b _
      ring
  rw [key, key, hlast, hsym]
  cases norm with
  | none =>
    simp only
    ring
  | some q =>
    have hq := hn q rfl
    simp only
    field_simp
    ring

end Verif.Fad
