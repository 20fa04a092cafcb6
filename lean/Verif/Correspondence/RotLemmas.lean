import Verif.Correspondence.KinProps
import Mathlib.Analysis.SpecialFunctions.Trigonometric.Basic

/-!
# Correspondence materials: helper lemmas on velocity gradient and rotation
-/

noncomputable section

namespace Verif.Correspondence

open Verif Verif.Neigh Verif.Mech Verif.Tensor Matrix
open scoped Classical

/-- The velocity gradient the evaluation uses at a point. -/
abbrev gradientAt (B : Body) (v : Nat → V3) (nbs : List (List Nat)) (r : Result) (p : Nat) : M9 :=
  velocityGradient B v (bondsAt (bondsOf nbs) p) (r.shape.inv p) (r.shape.grad p)

theorem rotation_at {B : Body} {M : Material} {dt : ℝ} {y v : Nat → V3} {s : State} {old : Stale}
    {nbs : List (List Nat)} {r : Result}
    (h : computeForce B M dt y v s old nbs.length (encode nbs) = .ok r) {p : Nat}
    (hp : p < nbs.length) :
    r.kinematics.stretch p = newStretch dt (gradientAt B v nbs r p) (s.stretch p) ∧
    r.kinematics.rotation p = newRotation dt (gradientAt B v nbs r p) (s.stretch p) (s.rotation p) ∧
    r.kinematics.rate p = unrotated (gradientAt B v nbs r p) (r.kinematics.rotation p) := by
  obtain ⟨h1, _, h3, _⟩ := computeForce_ok h
  have e := (rotation_fold B dt v (bondsOf nbs) (kinOf B y nbs old) s.stretch s.rotation
    (List.range nbs.length) { old.kinematics with code := 0 } p).1 (List.mem_range.mpr hp)
  unfold gradientAt
  rw [h1, h3]
  refine ⟨e.1, e.2.1, ?_⟩
  refine e.2.2.trans ?_
  congr 1
  exact e.2.1.symm

/-- Where the velocities of the neighbors are given by a matrix applied to the bonds, that is the
velocity gradient. -/
theorem gradient_flow {B : Body} {M : Material} {dt : ℝ} {y v : Nat → V3} {s : State} {old : Stale}
    {nbs : List (List Nat)} {r : Result}
    (h : computeForce B M dt y v s old nbs.length (encode nbs) = .ok r) {p : Nat} {ns : List Nat}
    (hp : nbs[p]? = some ns) {G : Mat} (hG : FlowingBy y v p ns G) :
    (gradientAt B v nbs r p).toMatrix = G := by
  obtain ⟨hlt, _⟩ := List.getElem?_eq_some_iff.1 hp
  obtain ⟨h1, h2, h3⟩ := grad_at h hlt
  have hd := (shape_at h hlt).2.1
  have e := firstTerm_map B v y (bondsAt (bondsOf nbs) p) G fun b hb => by
    obtain ⟨e1, e2⟩ := bondsAt_range hp hb
    rw [e1]; exact hG b.j e2
  unfold gradientAt velocityGradient
  rw [toMatrix_mm, toMatrix_mm, e, ← h1]
  rw [Matrix.mul_assoc G, Matrix.mul_assoc (r.shape.grad p).toMatrix, h2, Matrix.mul_one,
    Matrix.mul_assoc, product_invert3 hd, Matrix.mul_one]

theorem rate_eq (L : M9) : (rateOfDeformation L).toMatrix = (1 / 2 : ℝ) • (L.toMatrix + L.toMatrixᵀ) := by
  ext i j
  fin_cases i <;> fin_cases j <;>
    simp [rateOfDeformation, M9.toMatrix, Matrix.add_apply] <;> norm_num <;> ring

theorem unrotated_eq (L R : M9) : (unrotated L R).toMatrix =
    R.toMatrixᵀ * ((1 / 2 : ℝ) • (L.toMatrix + L.toMatrixᵀ)) * R.toMatrix := by
  unfold unrotated
  rw [toMatrix_mTm, toMatrix_mm, rate_eq, Matrix.mul_assoc]

theorem omegaTensor_eq (o : V3) : (omegaTensor o).toMatrix = axial o := by
  ext i j
  fin_cases i <;> fin_cases j <;> rfl

theorem axial_transpose (o : V3) : (axial o)ᵀ = -axial o := by
  ext i j
  fin_cases i <;> fin_cases j <;> simp [axial]

theorem axial_cube (o : V3) : axial o * axial o * axial o = -(omegaSq o) • axial o := by
  ext i j
  fin_cases i <;> fin_cases j <;>
    simp [axial, omegaSq, Matrix.mul_apply, Fin.sum_univ_three] <;> ring

theorem combine_eq (s1 s2 : ℝ) (A B : M9) :
    (combine s1 s2 A B).toMatrix = 1 + s1 • A.toMatrix + s2 • B.toMatrix := by
  ext i j
  fin_cases i <;> fin_cases j <;> simp [combine, M9.toMatrix]

/-- `I + s1 S + s2 S²` transposed times itself, for skew `S`. -/
theorem combine_gram (s1 s2 : ℝ) (o : V3) :
    (1 + s1 • axial o + s2 • (axial o * axial o))ᵀ * (1 + s1 • axial o + s2 • (axial o * axial o)) =
      1 + (2 * s2 - omegaSq o * s2 ^ 2 - s1 ^ 2) • (axial o * axial o) := by
  have h3 := axial_cube o
  have h4 : axial o * (axial o * (axial o * axial o)) = -(omegaSq o) • (axial o * axial o) := by
    rw [← Matrix.mul_assoc, ← Matrix.mul_assoc, h3, smul_mul_assoc]
  rw [Matrix.mul_assoc] at h3
  simp only [transpose_add, transpose_one, transpose_smul, transpose_mul, axial_transpose]
  simp only [add_mul, mul_add, one_mul, mul_one, smul_mul_assoc, mul_smul_comm, neg_mul, mul_neg,
    neg_neg, Matrix.mul_assoc, h3, h4]
  module

theorem omegaSq_nonneg (o : V3) : 0 ≤ omegaSq o := by
  unfold omegaSq
  nlinarith [mul_self_nonneg (o 0), mul_self_nonneg (o 1), mul_self_nonneg (o 2)]

/-- The factor by which the update deviates from a rotation. -/
def excess (dt : ℝ) (o : V3) : ℝ :=
  if 1 / 10 ^ 30 < omegaSq o then 4 * (1 - Real.cos (dt * Real.sqrt (omegaSq o))) / omegaSq o else 0

theorem excess_nonneg (dt : ℝ) (o : V3) : 0 ≤ excess dt o := by
  unfold excess
  split
  · have := Real.cos_le_one (dt * Real.sqrt (omegaSq o))
    exact div_nonneg (by linarith) (omegaSq_nonneg o)
  · exact le_refl _

theorem qMatrix_gram (dt : ℝ) (o : V3) :
    (qMatrix dt o).toMatrixᵀ * (qMatrix dt o).toMatrix = 1 - excess dt o • (axial o * axial o) := by
  unfold qMatrix excess
  split
  · rename_i h
    have hp : 0 < omegaSq o := lt_trans (by positivity) h
    rw [combine_eq, toMatrix_mm, omegaTensor_eq, combine_gram, sub_eq_add_neg (1 : Mat), ← neg_smul]
    congr 2
    have hs : Real.sqrt (omegaSq o) ^ 2 = omegaSq o := Real.sq_sqrt hp.le
    have hn : Real.sqrt (omegaSq o) ≠ 0 := (Real.sqrt_pos.mpr hp).ne'
    have hc := Real.sin_sq_add_cos_sq (dt * Real.sqrt (omegaSq o))
    rw [div_pow (Real.sin _), hs]
    field_simp
    linear_combination -hc
  · rw [toMatrix_identity]
    simp

/-- The squared length of `S x`, for the cross product matrix `S`. -/
theorem axial_dot (o x : V3) : -(x ⬝ᵥ (axial o * axial o) *ᵥ x) = (axial o *ᵥ x) ⬝ᵥ (axial o *ᵥ x) := by
  rw [← mulVec_mulVec, dotProduct_mulVec, ← mulVec_transpose, axial_transpose, neg_mulVec]
  simp

theorem dot_gram (Q : Mat) (x : V3) : (Q *ᵥ x) ⬝ᵥ (Q *ᵥ x) = x ⬝ᵥ (Qᵀ * Q) *ᵥ x := by
  rw [← mulVec_mulVec, dotProduct_mulVec x, vecMul_transpose]

theorem qMatrix_growth (dt : ℝ) (o x : V3) :
    ((qMatrix dt o).toMatrix *ᵥ x) ⬝ᵥ ((qMatrix dt o).toMatrix *ᵥ x) =
      x ⬝ᵥ x + excess dt o * ((axial o *ᵥ x) ⬝ᵥ (axial o *ᵥ x)) := by
  rw [dot_gram, qMatrix_gram, sub_mulVec, one_mulVec, dotProduct_sub, smul_mulVec, dotProduct_smul,
    ← axial_dot, smul_eq_mul]
  ring

theorem dot_self_nonneg (x : V3) : 0 ≤ x ⬝ᵥ x := by
  simp only [dotProduct, Fin.sum_univ_three]
  nlinarith [mul_self_nonneg (x 0), mul_self_nonneg (x 1), mul_self_nonneg (x 2)]

theorem spin_axial {L : M9} {o : V3} (h : L.toMatrix = axial o) (V : M9) : angularVelocity L V = o := by
  have hL : L = omegaTensor o := toMatrix_injective (by rw [h, omegaTensor_eq])
  subst hL
  have hD : rateOfDeformation (omegaTensor o) = Tensor.zero := by
    apply toMatrix_injective
    rw [rate_eq, omegaTensor_eq, axial_transpose, toMatrix_zero]
    simp
  unfold angularVelocity
  rw [hD]
  funext c
  fin_cases c <;>
    simp [omegaVector, zVector, Tensor.zero, wVector, spin, omegaTensor, vec_two] <;> norm_num <;> ring

theorem newRotation_eq (dt : ℝ) (L V R : M9) : (newRotation dt L V R).toMatrix =
    (qMatrix dt (angularVelocity L V)).toMatrix * R.toMatrix := by
  unfold newRotation
  rw [toMatrix_mm]

end Verif.Correspondence
