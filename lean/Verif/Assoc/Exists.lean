import Verif.Assoc.Spec
import Mathlib.Analysis.Matrix.Spectrum

/-!
# Bond-associated correspondence material: a correct decomposition exists
-/

noncomputable section

namespace Verif.Assoc

open Matrix

theorem svd_exists {q : Nat} (M : Matrix (Fin q) (Fin q) ℝ) (h : Mᵀ = M) : ∃ s : Svd q, s.IsFor M := by
  have hA : M.IsHermitian := by
    rw [IsHermitian, conjTranspose]
    ext i j
    simpa using congrFun (congrFun h i) j
  set Q : Matrix (Fin q) (Fin q) ℝ := hA.eigenvectorUnitary.1 with hQ
  have hst : star Q = Qᵀ := by
    ext i j
    simp [star_apply]
  have hQQ : Qᵀ * Q = 1 := by
    rw [← hst]
    exact Unitary.coe_star_mul_self hA.eigenvectorUnitary
  have hM : M = Q * diagonal hA.eigenvalues * Qᵀ := by
    have := hA.spectral_theorem
    rw [Unitary.conjStarAlgAut_apply] at this
    rw [← hst]
    exact this
  let sg : Fin q → ℝ := fun k => if hA.eigenvalues k < 0 then -1 else 1
  have hsg : ∀ k, sg k * sg k = 1 := fun k => by simp only [sg]; split <;> norm_num
  refine ⟨⟨Q * diagonal sg, fun k => |hA.eigenvalues k|, Q⟩, ?_, ?_, hQQ, fun k => abs_nonneg _⟩
  · have e : diagonal sg * diagonal (fun k => |hA.eigenvalues k|) = diagonal hA.eigenvalues := by
      rw [diagonal_mul_diagonal]
      congr 1
      funext k
      simp only [sg]
      split
      · next h => rw [abs_of_neg h]; ring
      · next h => rw [abs_of_nonneg (not_lt.mp h)]; ring
    show M = Q * diagonal sg * diagonal (fun k => |hA.eigenvalues k|) * Qᵀ
    rw [Matrix.mul_assoc Q, e]
    exact hM
  · show (Q * diagonal sg)ᵀ * (Q * diagonal sg) = 1
    rw [transpose_mul, diagonal_transpose, Matrix.mul_assoc, ← Matrix.mul_assoc Qᵀ, hQQ, Matrix.one_mul,
      diagonal_mul_diagonal, ← diagonal_one]
    congr 1
    funext k
    exact hsg k

/-- Some routine is correct. -/
theorem correct_exists : ∃ D : Decompose, D.Correct := by
  classical
  refine ⟨fun q M => if h : Mᵀ = M then (svd_exists M h).choose else ⟨0, 0, 0⟩, fun q M h => ?_⟩
  simp only [dif_pos h]
  exact (svd_exists M h).choose_spec

end Verif.Assoc
