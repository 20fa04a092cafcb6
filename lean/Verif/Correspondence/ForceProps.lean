import Verif.Correspondence.ForceLemmas
import Verif.Correspondence.KinProps

/-!
# Correspondence materials: balance of momentum and the partial stress (C76, C77, C78)
-/

noncomputable section

namespace Verif.Correspondence

open Verif Verif.Neigh Verif.Mech Verif.Tensor Matrix
open scoped Classical

theorem corner_within : Within cornerList 4 := by
  refine ⟨by decide, ?_⟩
  intro ns hns j hj
  simp only [cornerList, List.mem_singleton] at hns
  subst hns
  simp only [List.mem_cons, List.not_mem_nil, or_false] at hj
  omega

/-- **C76**: the forces of a correspondence material, hourglass forces included, have no resultant,
whatever the stress update does. -/
theorem C76_linear_momentum (B : Body) (M : Material) (dt : ℝ) (y v : Nat → V3) (s : State) (old : Stale)
    (nbs : List (List Nat)) (r : Result)
    (h : computeForce B M dt y v s old nbs.length (encode nbs) = .ok r) (N : Nat) (hN : Within nbs N) :
    totalForce B.volume r.total N = 0 := by
  obtain ⟨_, _, _, _, _, _, h7, h8⟩ := computeForce_ok h
  have hb := bonds_within hN
  have e1 := sum_points B (bondsOf nbs) r.shape r.cauchy _ _ _ N (fun k => B.volume k • LinearMap.id) hb
    (by
      intro p _
      apply List.sum_eq_zero
      intro x hx
      obtain ⟨b, _, rfl⟩ := List.mem_map.mp hx
      simp only [LinearMap.smul_apply, LinearMap.id_apply]
      module) h7
  have e2 := sum_scattered N (fun k => B.volume k • LinearMap.id) (scatter_scattered h8) hb (by
    intro b _ g _
    simp only [LinearMap.smul_apply, LinearMap.id_apply]
    module)
  simp only [LinearMap.smul_apply, LinearMap.id_apply, Pi.zero_apply, smul_zero,
    Finset.sum_const_zero] at e1 e2
  unfold totalForce Result.total
  simp only [smul_add, Finset.sum_add_distrib]
  rw [e1, e2, add_zero]

example : ∃ r, computeForce cornerBody idle 1 (stretched 2) 0 virgin blank cornerList.length
    (encode cornerList) = .ok r ∧ totalForce cornerBody.volume r.total 4 = 0 := by
  obtain ⟨r, h⟩ := corner_defined 1 2 two_ne_zero 0 virgin
  exact ⟨r, h, C76_linear_momentum _ _ _ _ _ _ _ _ _ h 4 corner_within⟩

/-- Deformation gradient and stress of a point give its first Piola-Kirchhoff stress. -/
theorem piola_at {B : Body} {M : Material} {dt : ℝ} {y v : Nat → V3} {s : State} {old : Stale}
    {nbs : List (List Nat)} {r : Result}
    (h : computeForce B M dt y v s old nbs.length (encode nbs) = .ok r) {p : Nat}
    (hp : p < nbs.length) :
    (piola (r.shape.grad p) (r.cauchy p)).toMatrix * (r.shape.grad p).toMatrixᵀ =
      (r.shape.grad p).toMatrix.det • (r.cauchy p).toMatrix := by
  have hd := (shape_at h hp).2.1
  unfold piola
  rw [toMatrix_mmT, smul_mul_assoc, Matrix.mul_assoc, ← transpose_mul, product_invert3 hd,
    transpose_one, Matrix.mul_one, determinant_eq]

/-- **C77**: if the stresses are symmetric and forces and deformation gradient use the same influence
function, the forces of a correspondence material, hourglass forces included, have no moment. -/
theorem C77_angular_momentum (B : Body) (M : Material) (dt : ℝ) (y v : Nat → V3) (s : State) (old : Stale)
    (nbs : List (List Nat)) (r : Result) (hB : B.omegaForce = B.omega)
    (h : computeForce B M dt y v s old nbs.length (encode nbs) = .ok r) (N : Nat) (hN : Within nbs N)
    (hs : ∀ p < nbs.length, (r.stress p).toMatrixᵀ = (r.stress p).toMatrix) :
    totalMoment y B.volume r.total N = 0 := by
  obtain ⟨_, _, _, _, _, h6, h7, h8⟩ := computeForce_ok h
  have hb := bonds_within hN
  have e1 := sum_points B (bondsOf nbs) r.shape r.cauchy _ _ _ N
    (fun k => B.volume k • crossProduct (y k)) hb (by
      intro p hp
      have hlt := List.mem_range.mp hp
      have hcauchy : (r.cauchy p).toMatrixᵀ = (r.cauchy p).toMatrix := by
        rw [h6 p]
        unfold rotateStress
        rw [toMatrix_mm, toMatrix_mmT, one_smul, transpose_mul, transpose_mul, transpose_transpose,
          hs p hlt, Matrix.mul_assoc]
      -- the sum of the outer products of bonds and pair forces is symmetric
      have hsym := outer_sum B hB (fun b => y b.j - y b.i) (stateOf r.shape r.cauchy p)
        (bondsAt (bondsOf nbs) p)
      obtain ⟨g1, g2, g3⟩ := grad_at h hlt
      have hinv : (r.shape.inv p).toMatrixᵀ = (r.shape.inv p).toMatrix := by
        have t := congrArg Matrix.transpose g2
        rw [transpose_mul, shape_symm, transpose_one] at t
        calc (r.shape.inv p).toMatrixᵀ
            = (r.shape.inv p).toMatrixᵀ * ((shapeTensor B (bondsAt (bondsOf nbs) p)).toMatrix *
                (r.shape.inv p).toMatrix) := by rw [g2, Matrix.mul_one]
          _ = _ := by rw [← Matrix.mul_assoc, t, Matrix.one_mul]
      have hval : ((bondsAt (bondsOf nbs) p).map fun b => B.volume b.j •
          vecMulVec (y b.j - y b.i) (bondForce B (stateOf r.shape r.cauchy p) b)).sum =
          (r.shape.grad p).toMatrix.det • (r.cauchy p).toMatrix := by
        rw [hsym, ← firstTerm_eq, ← g1]
        unfold stateOf
        rw [toMatrix_mm, transpose_mul, hinv, Matrix.mul_assoc, ← Matrix.mul_assoc _ _ (_)ᵀ, g2,
          Matrix.one_mul]
        have t := congrArg Matrix.transpose (piola_at h hlt)
        rw [transpose_mul, transpose_transpose, transpose_smul, hcauchy] at t
        exact t
      have hzero := twist_symm _ (show ((r.shape.grad p).toMatrix.det • (r.cauchy p).toMatrix)ᵀ = _ by
        rw [transpose_smul, hcauchy])
      rw [← hval, sum_map_linear] at hzero
      have : ∀ b ∈ bondsAt (bondsOf nbs) p,
          B.volume b.j • (B.volume b.i • crossProduct (y b.i))
            (bondForce B (stateOf r.shape r.cauchy p) b) -
          B.volume b.i • (B.volume b.j • crossProduct (y b.j))
            (bondForce B (stateOf r.shape r.cauchy p) b) =
          -(B.volume p) • twist (B.volume b.j •
            vecMulVec (y b.j - y b.i) (bondForce B (stateOf r.shape r.cauchy p) b)) := by
        intro b hbm
        have : b.i = p := by
          have := (List.mem_filter.mp hbm).2
          simpa using this
        rw [map_smul, twist_outer, map_sub, LinearMap.sub_apply, ← this]
        simp only [LinearMap.smul_apply]
        module
      rw [List.map_congr_left this]
      have hl := sum_map_linear (-(B.volume p) • (LinearMap.id : V3 →ₗ[ℝ] V3))
        (fun b => twist (B.volume b.j •
          vecMulVec (y b.j - y b.i) (bondForce B (stateOf r.shape r.cauchy p) b)))
        (bondsAt (bondsOf nbs) p)
      rw [hzero, map_zero] at hl
      exact hl.symm) h7
  have e2 := sum_scattered N (fun k => B.volume k • crossProduct (y k)) (scatter_scattered h8) hb (by
    intro b _ g hg
    have hc : ∃ c : ℝ, g = c • (y b.j - y b.i) := by
      unfold hourglassBond at hg
      simp only at hg
      split at hg
      · exact absurd hg (by simp)
      · cases hg
        exact ⟨_, rfl⟩
    obtain ⟨c, rfl⟩ := hc
    have : crossProduct (y b.i) (y b.j - y b.i) = crossProduct (y b.j) (y b.j - y b.i) := by
      rw [map_sub, map_sub, cross_self, cross_self, sub_zero, zero_sub, cross_anticomm]
    simp only [LinearMap.smul_apply, map_smul, this]
    module)
  simp only [LinearMap.smul_apply, Pi.zero_apply, map_zero, Finset.sum_const_zero] at e1 e2
  unfold totalMoment Result.total
  simp only [map_add, smul_add, Finset.sum_add_distrib]
  rw [e1, e2, add_zero]

example : ∃ r, computeForce cornerBody idle 1 (stretched 2) 0 virgin blank cornerList.length
    (encode cornerList) = .ok r ∧ cornerBody.omegaForce = cornerBody.omega ∧
    (∀ p < cornerList.length, (r.stress p).toMatrixᵀ = (r.stress p).toMatrix) := by
  obtain ⟨r, h⟩ := corner_defined 1 2 two_ne_zero 0 virgin
  refine ⟨r, h, rfl, fun p _ => ?_⟩
  have := (computeForce_ok h).2.2.2.2.1
  have : r.stress = virgin.stress := (BC.ok_inj this).symm
  rw [this]
  show identity.toMatrixᵀ = identity.toMatrix
  rw [toMatrix_identity, transpose_one]

/-- **C78**: the partial stress of a point is its first Piola-Kirchhoff stress: times the transposed
deformation gradient it is the Cauchy stress times the Jacobian determinant. -/
theorem C78_partial_stress (B : Body) (M : Material) (dt : ℝ) (y v : Nat → V3) (s : State) (old : Stale)
    (nbs : List (List Nat)) (r : Result) (hB : B.omegaForce = B.omega)
    (h : computeForce B M dt y v s old nbs.length (encode nbs) = .ok r) (p : Nat) (hp : p < nbs.length) :
    (r.forces.partialStress p).toMatrix * (r.shape.grad p).toMatrixᵀ =
      (r.shape.grad p).toMatrix.det • (r.cauchy p).toMatrix := by
  obtain ⟨_, _, _, _, _, _, h7, _⟩ := computeForce_ok h
  obtain ⟨g1, g2, g3⟩ := grad_at h hp
  have e := partial_points B (bondsOf nbs) r.shape r.cauchy _ List.nodup_range _ _ h7 p
  rw [if_pos (List.mem_range.mpr hp), toMatrix_zero, zero_add] at e
  have hT := outer_sum B hB (fun b => xi B b) (stateOf r.shape r.cauchy p) (bondsAt (bondsOf nbs) p)
  rw [← shapeTensor_eq] at hT
  have hT2 := congrArg Matrix.transpose hT
  rw [transpose_mul, transpose_transpose, shape_symm] at hT2
  have hl := sum_map_linear (transposeLinearEquiv (Fin 3) (Fin 3) ℝ ℝ).toLinearMap
    (fun b => B.volume b.j • vecMulVec (xi B b) (bondForce B (stateOf r.shape r.cauchy p) b))
    (bondsAt (bondsOf nbs) p)
  have hP : (r.forces.partialStress p).toMatrix = (piola (r.shape.grad p) (r.cauchy p)).toMatrix := by
    rw [e]
    refine Eq.trans ?_ ((hl.symm.trans hT2).trans ?_)
    · congr 1
      refine List.map_congr_left fun b _ => ?_
      show _ = (B.volume b.j • vecMulVec (xi B b) (bondForce B (stateOf r.shape r.cauchy p) b))ᵀ
      rw [transpose_smul, transpose_vecMulVec]
    · unfold stateOf
      rw [toMatrix_mm, Matrix.mul_assoc, g3, Matrix.mul_one]
  rw [hP]
  exact piola_at h hp

example : ∃ r, computeForce cornerBody idle 1 (stretched 2) 0 virgin blank cornerList.length
    (encode cornerList) = .ok r ∧ cornerBody.omegaForce = cornerBody.omega ∧ 0 < cornerList.length := by
  obtain ⟨r, h⟩ := corner_defined 1 2 two_ne_zero 0 virgin
  exact ⟨r, h, rfl, by decide⟩

end Verif.Correspondence
