import Verif.Params.Spec
import Mathlib.Tactic.Linarith
import Mathlib.Tactic.FieldSimp
import Mathlib.Tactic.Ring
import Mathlib.Tactic.Positivity
import Mathlib.Tactic.NormNum

/-!
# Elastic constants (C49)
-/

noncomputable section

namespace Verif.Params

open Verif
open scoped Classical

theorem count_two (c : Constants) : c.count = 2 ↔ TwoGiven c := by
  obtain ⟨b, s, y, p, _, _⟩ := c
  unfold Constants.count TwoGiven
  cases b <;> cases s <;> cases y <;> cases p <;> simp

theorem quotient_ok {a b q : ℝ} (hb : b ≠ 0) (h : a = q * b) : quotient a b = .ok q := by
  unfold quotient
  rw [if_neg hb, h, mul_div_assoc, div_self hb, mul_one]

/-- **C49**: any two constants of an isotropic material with positive moduli give its bulk and shear
modulus; plane strain and plane stress are excluded where Young's modulus and Poisson's ratio are given. -/
theorem C49_consistent_partial (K G : ℝ) (hK : 0 < K) (hG : 0 < G) (c : Constants) (h2 : TwoGiven c)
    (hd : Describes K G c)
    (hp : (c.planeStrain = false ∧ c.planeStress = false) ∨ c.young = none ∨ c.poisson = none) :
    bulkModulus c = .ok K ∧ shearModulus c = .ok G := by
  have hc := (count_two c).mpr h2
  unfold bulkModulus shearModulus
  rw [if_neg (not_not.mpr hc), if_neg (not_not.mpr hc)]
  obtain ⟨d1, d2, d3, d4⟩ := hd
  obtain ⟨b, s, y, p, ps, pt⟩ := c
  have hD : 3 * K + G ≠ 0 := by positivity
  have hK' := hK.ne'
  have hG' := hG.ne'
  simp only at d1 d2 d3 d4 hp
  rcases h2 with h | h | h | h | h | h <;> obtain ⟨h1, h2, h3, h4⟩ := h <;> simp only at h1 h2 h3 h4
  · obtain ⟨b, rfl⟩ := Option.isSome_iff_exists.mp h1
    obtain ⟨s, rfl⟩ := Option.isSome_iff_exists.mp h2
    subst h3 h4
    rw [d1 b rfl, d2 s rfl]
    exact ⟨rfl, rfl⟩
  · obtain ⟨b, rfl⟩ := Option.isSome_iff_exists.mp h1
    obtain ⟨y, rfl⟩ := Option.isSome_iff_exists.mp h3
    subst h2 h4
    rw [d1 b rfl, d3 y rfl]
    refine ⟨rfl, quotient_ok ?_ ?_⟩
    · have : 9 * K - 9 * K * G / (3 * K + G) = 27 * K * K / (3 * K + G) := by field_simp; ring
      rw [this]; positivity
    · field_simp; ring
  · obtain ⟨b, rfl⟩ := Option.isSome_iff_exists.mp h1
    obtain ⟨p, rfl⟩ := Option.isSome_iff_exists.mp h4
    subst h2 h3
    rw [d1 b rfl, d4 p rfl]
    refine ⟨rfl, quotient_ok ?_ ?_⟩
    · have : 2 * (1 + (3 * K - 2 * G) / (2 * (3 * K + G))) = 9 * K / (3 * K + G) := by field_simp; ring
      rw [this]; positivity
    · field_simp; ring
  · obtain ⟨s, rfl⟩ := Option.isSome_iff_exists.mp h2
    obtain ⟨y, rfl⟩ := Option.isSome_iff_exists.mp h3
    subst h1 h4
    rw [d2 s rfl, d3 y rfl]
    refine ⟨quotient_ok ?_ ?_, rfl⟩
    · have : 3 * (3 * G - 9 * K * G / (3 * K + G)) = 9 * G * G / (3 * K + G) := by field_simp; ring
      rw [this]; positivity
    · field_simp; ring
  · obtain ⟨s, rfl⟩ := Option.isSome_iff_exists.mp h2
    obtain ⟨p, rfl⟩ := Option.isSome_iff_exists.mp h4
    subst h1 h3
    rw [d2 s rfl, d4 p rfl]
    refine ⟨quotient_ok ?_ ?_, rfl⟩
    · have : 3 * (1 - 2 * ((3 * K - 2 * G) / (2 * (3 * K + G)))) = 9 * G / (3 * K + G) := by
        field_simp; ring
      rw [this]; positivity
    · field_simp; ring
  · obtain ⟨y, rfl⟩ := Option.isSome_iff_exists.mp h3
    obtain ⟨p, rfl⟩ := Option.isSome_iff_exists.mp h4
    subst h1 h2
    obtain ⟨rfl, rfl⟩ := hp.resolve_right (by simp)
    rw [d3 y rfl, d4 p rfl]
    refine ⟨quotient_ok ?_ ?_, quotient_ok ?_ ?_⟩
    · have : 3 * (1 - 2 * ((3 * K - 2 * G) / (2 * (3 * K + G)))) = 9 * G / (3 * K + G) := by
        field_simp; ring
      rw [this]; positivity
    · field_simp; ring
    · have : 2 * (1 + (3 * K - 2 * G) / (2 * (3 * K + G))) = 9 * K / (3 * K + G) := by field_simp; ring
      rw [this]; positivity
    · field_simp; ring

/-- Steel-like numbers: K = 4, G = 3 have E = 7.2 and ν = 0.2. -/
example : TwoGiven { young := some 7.2, poisson := some 0.2 } ∧
    Describes 4 3 { young := some 7.2, poisson := some 0.2 } := by
  refine ⟨Or.inr (Or.inr (Or.inr (Or.inr (Or.inr (by simp))))), by simp, by simp, ?_, ?_⟩
  · rintro e he; cases he; norm_num
  · rintro e he; cases he; norm_num

/-- **C49**: any other number of constants is refused. -/
theorem C49_refused (c : Constants) (h : ¬ TwoGiven c) :
    bulkModulus c = .fail .runtimeError ∧ shearModulus c = .fail .runtimeError := by
  have hc : c.count ≠ 2 := fun e => h ((count_two c).mp e)
  unfold bulkModulus shearModulus
  rw [if_pos hc, if_pos hc]
  exact ⟨rfl, rfl⟩

example : ¬ TwoGiven { bulk := some 1, shear := some 1, young := some 1 } := by simp [TwoGiven]

/-- The bulk modulus does not depend on which two constants of a material are given. -/
def ConstantsConsistent : Prop :=
  ∀ (K G : ℝ) (_ : 0 < K) (_ : 0 < G) (c c' : Constants), TwoGiven c → TwoGiven c' → Describes K G c →
    Describes K G c' → c.planeStrain = c'.planeStrain → c.planeStress = c'.planeStress →
    bulkModulus c = bulkModulus c'

/-- **C49 is false of the code** in plane strain and plane stress: there the two-dimensional bulk modulus is
used if, and only if, the constants given are Young's modulus and Poisson's ratio. -/
theorem C49_plane_inconsistent : ¬ ConstantsConsistent := by
  intro h
  have e := h 4 3 (by norm_num) (by norm_num)
    { young := some (36 / 5), poisson := some (1 / 5), planeStrain := true }
    { bulk := some 4, shear := some 3, planeStrain := true }
    (Or.inr (Or.inr (Or.inr (Or.inr (Or.inr (by simp))))))
    (Or.inl (by simp))
    ⟨by simp, by simp, by rintro e he; cases he; norm_num, by rintro e he; cases he; norm_num⟩
    ⟨by rintro e he; cases he; rfl, by rintro e he; cases he; rfl, by simp, by simp⟩ rfl rfl
  have e1 : bulkModulus { young := some (36 / 5), poisson := some (1 / 5), planeStrain := true } =
      .ok 5 := by
    unfold bulkModulus
    rw [if_neg (by simp [Constants.count])]
    show quotient _ _ = _
    apply quotient_ok <;> norm_num
  have e2 : bulkModulus { bulk := some 4, shear := some 3, planeStrain := true } = .ok 4 := by
    unfold bulkModulus
    rw [if_neg (by simp [Constants.count])]
    rfl
  rw [e1, e2] at e
  injection e with e
  norm_num at e

/-- **C49**, plane problems: what the code uses if Young's modulus and Poisson's ratio are given is the
two-dimensional bulk modulus, K + G/3 in plane strain and 9KG/(3K+4G) in plane stress. -/
theorem C49_plane_values (K G : ℝ) (hK : 0 < K) (hG : 0 < G) (c : Constants) (hb : c.bulk = none)
    (hs : c.shear = none) (hy : c.young.isSome) (hn : c.poisson.isSome) (hd : Describes K G c) :
    (c.planeStrain = true → bulkModulus c = .ok (K + G / 3)) ∧
    (c.planeStrain = false → c.planeStress = true → bulkModulus c = .ok (9 * K * G / (3 * K + 4 * G))) := by
  obtain ⟨d1, d2, d3, d4⟩ := hd
  obtain ⟨b, s, y, p, ps, pt⟩ := c
  simp only at hb hs hy hn d1 d2 d3 d4
  obtain ⟨y, rfl⟩ := Option.isSome_iff_exists.mp hy
  obtain ⟨p, rfl⟩ := Option.isSome_iff_exists.mp hn
  subst hb hs
  rw [d3 y rfl, d4 p rfl]
  have hD : 3 * K + G ≠ 0 := by positivity
  have hD4 : 3 * K + 4 * G ≠ 0 := by positivity
  have hK' := hK.ne'
  have hG' := hG.ne'
  constructor
  · intro h
    simp only at h
    subst h
    unfold bulkModulus
    rw [if_neg (by simp [Constants.count])]
    show quotient _ _ = _
    have : 2 * (1 - (3 * K - 2 * G) / (2 * (3 * K + G)) - 2 * ((3 * K - 2 * G) / (2 * (3 * K + G))) *
        ((3 * K - 2 * G) / (2 * (3 * K + G)))) = 27 * K * G / ((3 * K + G) * (3 * K + G)) := by
      field_simp; ring
    rw [this]
    refine quotient_ok (by positivity) ?_
    field_simp; ring
  · intro h h'
    simp only at h h'
    subst h h'
    unfold bulkModulus
    rw [if_neg (by simp [Constants.count])]
    show quotient _ _ = _
    have : 2 * (1 - (3 * K - 2 * G) / (2 * (3 * K + G))) = (3 * K + 4 * G) / (3 * K + G) := by
      field_simp; ring
    rw [this]
    refine quotient_ok (by positivity) ?_
    field_simp

example : Describes 4 3 { young := some (36 / 5), poisson := some (1 / 5), planeStrain := true } :=
  ⟨by simp, by simp, by rintro e he; cases he; norm_num, by rintro e he; cases he; norm_num⟩

end Verif.Params
