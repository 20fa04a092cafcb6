import Verif.Tensor.Model
import Mathlib.LinearAlgebra.Matrix.Notation
import Mathlib.LinearAlgebra.Matrix.Determinant.Basic
import Mathlib.Tactic.FieldSimp
import Mathlib.Tactic.Ring
import Mathlib.Tactic.FinCases

/-!
# Three by three matrices: the functions compute what their names say
-/

namespace Verif.Tensor

open Matrix

/-- The matrix that the nine numbers stand for. -/
def M9.toMatrix (m : M9) : Matrix (Fin 3) (Fin 3) ℝ :=
  !![m.xx, m.xy, m.xz; m.yx, m.yy, m.yz; m.zx, m.zy, m.zz]

theorem toMatrix_injective {a b : M9} (h : a.toMatrix = b.toMatrix) : a = b := by
  have e : ∀ i j, a.toMatrix i j = b.toMatrix i j := fun i j => by rw [h]
  exact M9.ext (e 0 0) (e 0 1) (e 0 2) (e 1 0) (e 1 1) (e 1 2) (e 2 0) (e 2 1) (e 2 2)

/-- The nine numbers of a matrix. -/
def M9.of (A : Matrix (Fin 3) (Fin 3) ℝ) : M9 :=
  ⟨A 0 0, A 0 1, A 0 2, A 1 0, A 1 1, A 1 2, A 2 0, A 2 1, A 2 2⟩

theorem toMatrix_of (A : Matrix (Fin 3) (Fin 3) ℝ) : (M9.of A).toMatrix = A := by
  ext i j; fin_cases i <;> fin_cases j <;> rfl

theorem toMatrix_zero : zero.toMatrix = 0 := by
  ext i j; fin_cases i <;> fin_cases j <;> rfl

theorem toMatrix_transpose (m : M9) : (transpose m).toMatrix = m.toMatrixᵀ := by
  ext i j; fin_cases i <;> fin_cases j <;> rfl

theorem determinant_eq (m : M9) : determinant m = m.toMatrix.det := by
  rw [Matrix.det_fin_three]
  show determinant m = m.xx * m.yy * m.zz - m.xx * m.yz * m.zy - m.xy * m.yx * m.zz
    + m.xy * m.yz * m.zx + m.xz * m.yx * m.zy - m.xz * m.yy * m.zx
  unfold determinant; ring

theorem toMatrix_product (a b : M9) : (product a b).toMatrix = a.toMatrix * b.toMatrix := by
  ext i j
  rw [Matrix.mul_apply, Fin.sum_univ_three]
  fin_cases i <;> fin_cases j <;> rfl

theorem productOf_eq (ta tb : Bool) (a b : M9) :
    productOf ta tb a b = product (if ta then transpose a else a) (if tb then transpose b else b) := by
  cases ta <;> cases tb <;> rfl

theorem matrixMultiply_eq (ta tb : Bool) (alpha : ℝ) (a b : M9) :
    (matrixMultiply ta tb alpha a b).toMatrix =
      alpha • ((if ta then a.toMatrixᵀ else a.toMatrix) * (if tb then b.toMatrixᵀ else b.toMatrix)) := by
  have hs : ∀ m : M9, (scale alpha m).toMatrix = alpha • m.toMatrix := by
    intro m
    ext i j
    rw [Matrix.smul_apply, smul_eq_mul, mul_comm]
    fin_cases i <;> fin_cases j <;> rfl
  have hp : (productOf ta tb a b).toMatrix =
      (if ta then a.toMatrixᵀ else a.toMatrix) * (if tb then b.toMatrixᵀ else b.toMatrix) := by
    rw [productOf_eq, toMatrix_product]
    cases ta <;> cases tb <;> simp only [if_true, Bool.false_eq_true, if_false, toMatrix_transpose]
  unfold matrixMultiply
  split
  · rw [hs, hp]
  · rename_i h
    rw [not_not] at h
    rw [hp, h, one_smul]

theorem invert3_singular {m : M9} (h : determinant m = 0) : invert3 m = (1, zero) := by
  unfold invert3; rw [if_pos h]

theorem invert3_code (m : M9) : (invert3 m).1 = 0 ↔ determinant m ≠ 0 := by
  unfold invert3; split <;> simp_all

/-- The inverse is a right inverse. -/
theorem product_invert3 {m : M9} (h : determinant m ≠ 0) :
    m.toMatrix * (invert3 m).2.toMatrix = 1 := by
  rw [← toMatrix_product]
  have e : product m (invert3 m).2 = ⟨1, 0, 0, 0, 1, 0, 0, 0, 1⟩ := by
    unfold invert3
    rw [if_neg h]
    unfold product
    have hd := h
    simp only
    generalize hD : determinant m = D at hd ⊢
    unfold determinant at hD
    ext <;> simp only <;> field_simp <;> rw [← hD] <;> ring
  rw [e]
  ext i j
  fin_cases i <;> fin_cases j <;> rfl

theorem invert3_product {m : M9} (h : determinant m ≠ 0) :
    (invert3 m).2.toMatrix * m.toMatrix = 1 :=
  mul_eq_one_comm.mp (product_invert3 h)

end Verif.Tensor
