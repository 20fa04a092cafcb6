import Verif.Correspondence.RotLemmas

/-!
# Correspondence materials: velocity gradient, rigid motion and the rotation tensor (C79, C80)
-/

noncomputable section

namespace Verif.Correspondence

open Verif Verif.Neigh Verif.Mech Verif.Tensor Matrix
open scoped Classical

/-- Spinning about the third axis. -/
def spinning (y : Nat → V3) : Nat → V3 := fun p => axial ![0, 0, 1] *ᵥ y p

theorem spinning_flow (y : Nat → V3) (p : Nat) (ns : List Nat) :
    FlowingBy y (spinning y) p ns (axial ![0, 0, 1]) := by
  intro j _
  unfold spinning
  rw [mulVec_sub]

/-- **C80**: where the velocities of the neighbors relative to a point are a matrix applied to the
current bonds, the rate of deformation handed to the stress update is the symmetric part of that matrix,
turned back by the point's new rotation tensor. -/
theorem C80_rate (B : Body) (M : Material) (dt : ℝ) (y v : Nat → V3) (s : State) (old : Stale)
    (nbs : List (List Nat)) (r : Result)
    (h : computeForce B M dt y v s old nbs.length (encode nbs) = .ok r) (p : Nat) (ns : List Nat)
    (hp : nbs[p]? = some ns) (G : Mat) (hG : FlowingBy y v p ns G) :
    (r.kinematics.rate p).toMatrix = (r.kinematics.rotation p).toMatrixᵀ * ((1 / 2 : ℝ) • (G + Gᵀ)) *
      (r.kinematics.rotation p).toMatrix := by
  obtain ⟨hlt, _⟩ := List.getElem?_eq_some_iff.1 hp
  obtain ⟨_, _, h3⟩ := rotation_at h hlt
  rw [h3, unrotated_eq, gradient_flow h hp hG]

example : ∃ r, computeForce cornerBody idle 1 (stretched 2) (spinning (stretched 2)) virgin blank
    cornerList.length (encode cornerList) = .ok r ∧
    FlowingBy (stretched 2) (spinning (stretched 2)) 0 [1, 2, 3] (axial ![0, 0, 1]) := by
  obtain ⟨r, h⟩ := corner_defined 1 2 two_ne_zero (spinning (stretched 2)) virgin
  exact ⟨r, h, spinning_flow _ _ _⟩

/-- **C80**, rigid motion: if all points move with the velocities of a rigid body the stress update
sees no deformation, in whatever configuration the body is. -/
theorem C80_rigid (B : Body) (M : Material) (dt : ℝ) (y v : Nat → V3) (s : State) (old : Stale)
    (nbs : List (List Nat)) (r : Result)
    (h : computeForce B M dt y v s old nbs.length (encode nbs) = .ok r) (c : V3) (w : V3)
    (hv : ∀ k, v k = c + crossProduct w (y k)) (p : Nat) (hp : p < nbs.length) :
    (r.kinematics.rate p).toMatrix = 0 := by
  have hf : FlowingBy y v p nbs[p] (axial w) := by
    intro j _
    rw [hv, hv]
    funext k
    fin_cases k <;>
      simp [crossProduct, axial, mulVec, dotProduct, Fin.sum_univ_three, vec_two] <;> ring
  rw [C80_rate B M dt y v s old nbs r h p _ (List.getElem?_eq_getElem hp) _ hf, axial_transpose]
  simp

example : ∃ r, computeForce cornerBody idle 1 (stretched 2)
    (fun k => ![1, 0, 0] + crossProduct ![0, 0, 1] (stretched 2 k)) virgin blank
    cornerList.length (encode cornerList) = .ok r ∧ (r.kinematics.rate 0).toMatrix = 0 := by
  obtain ⟨r, h⟩ := corner_defined 1 2 two_ne_zero
    (fun k => ![1, 0, 0] + crossProduct ![0, 0, 1] (stretched 2 k)) virgin
  exact ⟨r, h, C80_rigid _ _ _ _ _ _ _ _ _ h _ _ (fun _ => rfl) 0 (by decide)⟩

/-- The rotation tensors stay rotations: an evaluation that starts with orthogonal rotation tensors
ends with orthogonal ones. -/
def RotationsStay : Prop :=
  ∀ (B : Body) (M : Material) (dt : ℝ) (y v : Nat → V3) (s : State) (old : Stale)
    (nbs : List (List Nat)) (r : Result),
    computeForce B M dt y v s old nbs.length (encode nbs) = .ok r → ∀ p < nbs.length,
    (s.rotation p).toMatrixᵀ * (s.rotation p).toMatrix = 1 →
    (r.kinematics.rotation p).toMatrixᵀ * (r.kinematics.rotation p).toMatrix = 1

/-- **C79**, when the rotation tensor of a rigidly spinning point stays orthogonal: only if it hardly
spins or makes complete turns. -/
theorem C79_rigid_partial (B : Body) (M : Material) (dt : ℝ) (y v : Nat → V3) (s : State) (old : Stale)
    (nbs : List (List Nat)) (r : Result)
    (h : computeForce B M dt y v s old nbs.length (encode nbs) = .ok r) (p : Nat) (ns : List Nat)
    (hp : nbs[p]? = some ns) (w : V3) (hw : FlowingBy y v p ns (axial w))
    (ho : (s.rotation p).toMatrixᵀ * (s.rotation p).toMatrix = 1) :
    (r.kinematics.rotation p).toMatrixᵀ * (r.kinematics.rotation p).toMatrix = 1 ↔
      w ⬝ᵥ w ≤ 1 / 10 ^ 30 ∨ Real.cos (dt * Real.sqrt (w ⬝ᵥ w)) = 1 := by
  obtain ⟨hlt, _⟩ := List.getElem?_eq_some_iff.1 hp
  have hsq : w ⬝ᵥ w = omegaSq w := by simp [dotProduct, Fin.sum_univ_three, omegaSq]
  obtain ⟨_, h2, _⟩ := rotation_at h hlt
  rw [h2, newRotation_eq, spin_axial (gradient_flow h hp hw), hsq]
  have key : ((qMatrix dt w).toMatrix * (s.rotation p).toMatrix)ᵀ *
      ((qMatrix dt w).toMatrix * (s.rotation p).toMatrix) = 1 - excess dt w •
        ((s.rotation p).toMatrixᵀ * (axial w * axial w) * (s.rotation p).toMatrix) := by
    rw [transpose_mul, Matrix.mul_assoc, ← Matrix.mul_assoc (qMatrix dt w).toMatrixᵀ, qMatrix_gram,
      Matrix.sub_mul, Matrix.mul_sub, Matrix.one_mul, ho]
    simp only [smul_mul_assoc, mul_smul_comm, Matrix.mul_assoc]
  rw [key]
  constructor
  · intro e
    by_contra hn
    rw [not_or, not_le] at hn
    obtain ⟨hn1, hn2⟩ := hn
    have hpos : 0 < omegaSq w := lt_trans (by positivity) hn1
    have he : excess dt w ≠ 0 := by
      unfold excess
      rw [if_pos hn1]
      refine div_ne_zero (mul_ne_zero four_ne_zero ?_) hpos.ne'
      intro hc
      exact hn2 (by linarith)
    have e0 : (s.rotation p).toMatrixᵀ * (axial w * axial w) * (s.rotation p).toMatrix = 0 := by
      have := sub_eq_self.mp e
      exact (smul_eq_zero.mp this).resolve_left he
    have ho' : (s.rotation p).toMatrix * (s.rotation p).toMatrixᵀ = 1 :=
      mul_eq_one_comm.mp ho
    have e1 : axial w * axial w = 0 := by
      have := congrArg (fun X => (s.rotation p).toMatrix * X * (s.rotation p).toMatrixᵀ) e0
      simp only [Matrix.mul_zero, Matrix.zero_mul] at this
      rw [← Matrix.mul_assoc, ← Matrix.mul_assoc, ho', Matrix.one_mul, Matrix.mul_assoc, ho',
        Matrix.mul_one] at this
      exact this
    have e00 := congrFun (congrFun e1 0) 0
    have e11 := congrFun (congrFun e1 1) 1
    have e22 := congrFun (congrFun e1 2) 2
    simp [axial, Matrix.mul_apply, Fin.sum_univ_three] at e00 e11 e22
    unfold omegaSq at hpos
    nlinarith
  · intro hc
    have he : excess dt w = 0 := by
      unfold excess
      split
      · rename_i hlt
        rcases hc with hc | hc
        · exact absurd hlt (not_lt.mpr hc)
        · rw [hc]; simp
      · rfl
    rw [he]
    simp

theorem virgin_orthogonal (p : Nat) :
    (virgin.rotation p).toMatrixᵀ * (virgin.rotation p).toMatrix = 1 := by
  show identity.toMatrixᵀ * identity.toMatrix = 1
  rw [toMatrix_identity]
  simp

theorem cos_one_ne : Real.cos 1 ≠ 1 := by
  intro h
  have h1 := Real.cos_lt_cos_of_nonneg_of_le_pi_div_two (le_refl (0 : ℝ))
    (by linarith [Real.pi_gt_three]) one_pos
  rw [Real.cos_zero, h] at h1
  exact lt_irrefl _ h1

/-- **C79 is false of the code**: a body that spins once around per 2π time units has, after a time step
of one, a rotation tensor that is not orthogonal. -/
theorem C79_not_orthogonal : ¬ RotationsStay := by
  intro hs
  obtain ⟨r, h⟩ := corner_defined 1 1 one_ne_zero (spinning (stretched 1)) virgin
  have e := hs _ _ _ _ _ _ _ _ _ h 0 (by decide) (virgin_orthogonal 0)
  rcases (C79_rigid_partial _ _ _ _ _ _ _ _ _ h 0 [1, 2, 3] rfl _ (spinning_flow _ _ _)
    (virgin_orthogonal 0)).mp e with hc | hc
  · norm_num [dotProduct, Fin.sum_univ_three, vec_two] at hc
  · have : (![0, 0, 1] : V3) ⬝ᵥ ![0, 0, 1] = 1 := by
      simp [dotProduct, Fin.sum_univ_three, vec_two]
    rw [this, Real.sqrt_one, mul_one] at hc
    exact cos_one_ne hc

example : ∃ r, computeForce cornerBody idle 1 (stretched 1) (spinning (stretched 1)) virgin blank
    cornerList.length (encode cornerList) = .ok r ∧
    (virgin.rotation 0).toMatrixᵀ * (virgin.rotation 0).toMatrix = 1 ∧
    FlowingBy (stretched 1) (spinning (stretched 1)) 0 [1, 2, 3] (axial ![0, 0, 1]) := by
  obtain ⟨r, h⟩ := corner_defined 1 1 one_ne_zero (spinning (stretched 1)) virgin
  exact ⟨r, h, virgin_orthogonal 0, spinning_flow _ _ _⟩

/-- **C79**, what does hold of whole runs: the rotation tensor never shortens a vector, at no point and
in no step; the error above can only accumulate. -/
theorem C79_growth_partial (B : Body) (M : Material) (nbs : List (List Nat)) (s0 s : State)
    (hist : List Result) (h : Run B M nbs s0 s hist) (p : Nat) (hp : p < nbs.length) (x : V3) :
    ((s0.rotation p).toMatrix *ᵥ x) ⬝ᵥ ((s0.rotation p).toMatrix *ᵥ x) ≤
      ((s.rotation p).toMatrix *ᵥ x) ⬝ᵥ ((s.rotation p).toMatrix *ᵥ x) := by
  induction h with
  | start => exact le_refl _
  | step dt y v old hr hc ih =>
    rename_i s hist r
    refine le_trans ih ?_
    obtain ⟨_, h2, _⟩ := rotation_at hc hp
    show _ ≤ ((r.kinematics.rotation p).toMatrix *ᵥ x) ⬝ᵥ ((r.kinematics.rotation p).toMatrix *ᵥ x)
    rw [h2, newRotation_eq, ← mulVec_mulVec, qMatrix_growth]
    have := mul_nonneg (excess_nonneg dt (angularVelocity (gradientAt B v nbs r p) (s.stretch p)))
      (dot_self_nonneg (axial (angularVelocity (gradientAt B v nbs r p) (s.stretch p)) *ᵥ
        ((s.rotation p).toMatrix *ᵥ x)))
    linarith

example : ∃ s hist, Run cornerBody idle cornerList virgin s hist ∧ hist.length = 1 := by
  obtain ⟨r, h⟩ := corner_defined 1 1 one_ne_zero (spinning (stretched 1)) virgin
  exact ⟨_, _, .step 1 (stretched 1) (spinning (stretched 1)) blank .start h, rfl⟩

end Verif.Correspondence
