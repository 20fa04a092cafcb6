import Verif.Hypo.Cases
import Verif.Correspondence.StressProps
import Verif.Assoc.MotionProps

/-!
# Hypoelastic correspondence material: power, moments, rigid motions, volumes

C165: power of the forces; moments.
C166: rigid motions.
C168: Jacobian determinant, deformation gradient and Green-Lagrange strain.
-/

noncomputable section

namespace Verif.Hypo

open Verif Verif.Neigh Verif.Mech Verif.Tensor Matrix
open Verif.Assoc (Body Decompose bondGradient WellPlaced xi corner tetraNbs gradOf bondOf bondMeasure)
open Verif.Correspondence (bondsAt addOuter identity newStretch newRotation unrotated rotateStress mem_bondsAt
  toMatrix_mm toMatrix_mmT toMatrix_identity twist twist_outer twist_symm sum_map_linear unrotated_eq
  elasticPoint axial axial_transpose qMatrix newRotation_eq spin_axial omegaTensor_eq toMatrix_addScaled toMatrix_sub9 trialStress
  plasticOut trial_eq hooke dev mean plasticOut_stress perfectPoint misesOf devStress devStrain)
open scoped Classical

/-! ### C165 -/

/-- **C165** Without flying points the power of the forces is minus the power of the Cauchy stresses of the bonds over the velocity
gradients of the bonds. -/
theorem C165_power {α β : Type} {B : Block} {D : Decompose} {order : Nat} {M : Material α β} {a : α} {o : β}
    {nbs : List (List Nat)} (hB : Whole B nbs) {s : State α β} (hrun : Run B D order M a o nbs (Grounded nbs) s) {dt : ℝ} {H : Harm}
    (hH : Grounded nbs H) {y v : Nat → V3} {g : Ghosts} {r : Result α β}
    (h : evaluation B D order M dt H y v g s nbs.length (encode nbs) = .ok r) :
    ∑ k ∈ Finset.range nbs.length, B.volume k * (v k ⬝ᵥ r.force k) =
      - ((bondsOf nbs).map fun b => bondMeasure (current B s.jacobian y) r.pre.w0 r.pre.weights.omega b *
        trace ((r.bondGrad b.b).toMatrix * (r.bondCauchy b.b).toMatrixᵀ)).sum := by
  have hw := congrArg (traceLinearMap (Fin 3) ℝ ℝ) (work_run hB hrun hH h v)
  obtain ⟨hpre, hp⟩ := evaluation_parts h
  rw [map_sum, map_neg, sum_map_linear] at hw
  have e1 : ∀ k, traceLinearMap (Fin 3) ℝ ℝ (B.volume k • vecMulVec (v k) (r.force k)) = B.volume k * (v k ⬝ᵥ r.force k) := by
    intro k
    rw [map_smul, traceLinearMap_apply, trace_vecMulVec, smul_eq_mul]
  simp only [e1] at hw
  rw [hw]
  congr 2
  refine List.map_congr_left fun b hb => ?_
  rw [map_smul, traceLinearMap_apply, smul_eq_mul, hp.bondGrad b hb (hH.flag _), Verif.Assoc.bondGradient_bondOf]
  obtain ⟨hi, hj⟩ := bonds_within hB.within b hb
  have hd : ∀ p < nbs.length, gradOf (current B s.jacobian y) r.pre.weights.phi v (bondsOf nbs) p = (r.pre.grad p).toMatrix := by
    intro p hp
    rw [hpre.grad p, if_pos hp, if_pos ((hH.flag p).trans (by norm_num)), Verif.Assoc.gradientAt_gradOf, toMatrix_zero, zero_add]
  rw [Verif.Assoc.bondOf_congr _ (G' := fun p => (r.pre.grad p).toMatrix) v (hd b.i hi) (hd b.j hj)]

example : Whole quad tetraNbs ∧ Grounded tetraNbs calm ∧ ∃ (D : Decompose) (s : State Unit ℝ) (r : Result Unit ℝ),
    Run quad D 1 (elastic 3 1) () 0 tetraNbs (Grounded tetraNbs) s ∧
    evaluation quad D 1 (elastic 3 1) 1 calm corner swirl still s tetraNbs.length (encode tetraNbs) = .ok r := by
  obtain ⟨D, _, s, hs, -, -, r, hr⟩ := quad_case
  exact ⟨quad_whole, calm_grounded, D, s, r, hs, hr⟩

/-- **C165** If the stresses of the bonds are symmetric, no point flies, and the neighbors of all points in their current positions
determine linear fields, the moments of the forces about the current positions add up to zero. -/
theorem C165_moment {α β : Type} {B : Block} {D : Decompose} (hD : D.Correct) {order : Nat} {M : Material α β} {a : α} {o : β}
    {nbs : List (List Nat)} (hB : Whole B nbs) {s : State α β} (hrun : Run B D order M a o nbs (Grounded nbs) s) {dt : ℝ} {H : Harm}
    (hH : Grounded nbs H) {y v : Nat → V3} {g : Ghosts} {r : Result α β}
    (h : evaluation B D order M dt H y v g s nbs.length (encode nbs) = .ok r) (hh : 0 < B.horizon)
    (hw : ∀ p < nbs.length, WellPlaced (current B s.jacobian y) order H.bondDamage nbs p)
    (hs : ∀ k, (r.arrays.bonds k).stress.toMatrixᵀ = (r.arrays.bonds k).stress.toMatrix) :
    totalMoment y B.volume r.force nbs.length = 0 := by
  have hwk := congrArg twist (work_run hB hrun hH h y)
  obtain ⟨hpre, hp⟩ := evaluation_parts h
  rw [map_sum, map_neg, sum_map_linear] at hwk
  have e1 : ∀ k, twist (B.volume k • vecMulVec (y k) (r.force k)) = B.volume k • crossProduct (y k) (r.force k) := by
    intro k
    rw [map_smul, twist_outer]
  simp only [e1] at hwk
  rw [totalMoment, hwk, neg_eq_zero]
  apply List.sum_eq_zero
  intro m hm
  obtain ⟨b, hb, rfl⟩ := List.mem_map.1 hm
  obtain ⟨hi, hj⟩ := bonds_within hB.within b hb
  have hg : ∀ p < nbs.length, gradOf (current B s.jacobian y) r.pre.weights.phi y (bondsOf nbs) p = 1 := fun p hlt =>
    Verif.Assoc.gradOf_coordinates hD hpre.positive hlt (hpre.current p hlt ((hH.flag p).trans (by norm_num))) hh (hw p hlt)
  rw [Verif.Assoc.bondOf_congr _ (G' := fun _ => 1) y (hg b.i hi) (hg b.j hj),
    Verif.Assoc.bondOf_affine _ 1 y (by rw [one_mulVec]; rfl), Matrix.one_mul, map_smul, twist_symm, smul_zero]
  rw [transpose_transpose, hp.bondCauchy, rotateStress, toMatrix_mm, toMatrix_mmT, one_smul]
  simp only [transpose_mul, transpose_transpose, hs b.b, Matrix.mul_assoc]

theorem elastic_symmetric (bulk shear : ℝ) : SymmetricLaw (elasticLaw bulk shear) := by
  intro dt D sigma a o r h hD hs
  cases h
  show (elasticPoint bulk shear dt none D sigma).toMatrixᵀ = (elasticPoint bulk shear dt none D sigma).toMatrix
  rw [Verif.Assoc.elastic_eq]
  simp only [transpose_add, transpose_smul, transpose_one, hs, dev, transpose_sub, hD]

theorem dev_mean (a : Matrix (Fin 3) (Fin 3) ℝ) : a = dev a + mean a • (1 : Matrix (Fin 3) (Fin 3) ℝ) := by
  unfold dev
  abel

theorem trial_symmetric (bulk shear dt : ℝ) {D sigma : M9} (hD : D.toMatrixᵀ = D.toMatrix) (hs : sigma.toMatrixᵀ = sigma.toMatrix) :
    (trialStress bulk shear dt D sigma).toMatrixᵀ = (trialStress bulk shear dt D sigma).toMatrix := by
  rw [trial_eq, hooke]
  simp only [transpose_add, transpose_smul, transpose_one, hs, hD]

theorem plasticOut_symmetric (shear yield : ℝ) (e : M9) {t : M9} (sigma : M9) (eqps : ℝ) (ht : t.toMatrixᵀ = t.toMatrix) :
    (plasticOut shear yield e t sigma eqps).stress.toMatrixᵀ = (plasticOut shear yield e t sigma eqps).stress.toMatrix := by
  obtain ⟨h1, h2, -⟩ := plasticOut_stress shear yield e t sigma eqps
  rw [dev_mean (plasticOut shear yield e t sigma eqps).stress.toMatrix, h1, h2]
  simp only [transpose_add, transpose_smul, transpose_one, dev, transpose_sub, ht]

theorem perfect_symmetric (bulk shear yield : ℝ) : SymmetricLaw (perfectLaw bulk shear yield) := by
  intro dt D sigma a o r h hD hs
  obtain ⟨q, h1, h2⟩ := Outcome.bind_eq_ok.mp h
  cases h2
  unfold perfectPoint at h1
  simp only at h1
  split at h1
  · split at h1
    · cases h1
    · cases h1
      exact plasticOut_symmetric shear yield (devStrain dt D) sigma a (trial_symmetric _ _ _ hD hs)
  · cases h1
    exact trial_symmetric _ _ _ hD hs

theorem powerNode_symmetric (bulk shear : ℝ) (rule : Verif.Return.Rule) : SymmetricLaw (powerNode bulk shear rule) := by
  intro dt D sigma a o r h hD hs
  obtain ⟨q, h1, h2⟩ := Outcome.bind_eq_ok.mp h
  split at h2
  · cases h2
    exact trial_symmetric _ _ _ hD hs
  · obtain ⟨y', -, h3⟩ := Outcome.bind_eq_ok.mp h2
    split at h3
    · split at h3
      · cases h3
      · cases h3
        exact plasticOut_symmetric shear y' (devStrain dt D) sigma a (trial_symmetric _ _ _ hD hs)
    · cases h3
      exact trial_symmetric _ _ _ hD hs

theorem powerBond_symmetric (bulk shear : ℝ) (rule : Verif.Return.Rule) : SymmetricLaw (powerBond bulk shear rule) := by
  intro dt D sigma a o r h hD hs
  obtain ⟨q, h1, h2⟩ := Outcome.bind_eq_ok.mp h
  split at h2
  · cases h2
    exact trial_symmetric _ _ _ hD hs
  · obtain ⟨y', -, h3⟩ := Outcome.bind_eq_ok.mp h2
    split at h3
    · cases h3
    · cases h3
      exact plasticOut_symmetric shear y' (devStrain dt D) sigma a (trial_symmetric _ _ _ hD hs)

theorem rate_symmetric (L R : M9) : (unrotated L R).toMatrixᵀ = (unrotated L R).toMatrix := by
  rw [unrotated_eq]
  simp only [transpose_mul, transpose_smul, transpose_add, transpose_transpose, Matrix.mul_assoc]
  rw [add_comm]

theorem symmetric_step {α β : Type} {B : Block} {D : Decompose} {order : Nat} {M : Material α β} (hM : SymmetricLaw M.bond)
    {dt : ℝ} {H : Harm} {y v : Nat → V3} {g : Ghosts} {s : State α β} {nbs : List (List Nat)} {r : Result α β}
    (h : evaluation B D order M dt H y v g s nbs.length (encode nbs) = .ok r)
    (h1 : ∀ k, (s.now.bonds k).stress.toMatrixᵀ = (s.now.bonds k).stress.toMatrix)
    (h2 : ∀ k, (s.found.bonds k).stress.toMatrixᵀ = (s.found.bonds k).stress.toMatrix) (k : Nat) :
    (r.arrays.bonds k).stress.toMatrixᵀ = (r.arrays.bonds k).stress.toMatrix := by
  have hp := (evaluation_parts h).2
  by_cases hk : k ∈ (liveBonds H (bondsOf nbs)).map (·.b)
  · obtain ⟨b, hb, rfl⟩ := List.mem_map.1 hk
    obtain ⟨hb, hf⟩ := mem_live.mp hb
    obtain ⟨-, -, e⟩ := advance_parts (hp.bond b hb hf)
    exact hM _ _ _ _ _ _ e (rate_symmetric _ _) (h1 _)
  · rw [(hp.bondIdle k hk).1]
    exact h2 k

/-- **C165** The stresses of the bonds are symmetric throughout a run if the law of the bonds keeps symmetric stresses symmetric, as
those of the elastic, the perfectly plastic and the hardening material do. -/
theorem C165_symmetric {α β : Type} {B : Block} {D : Decompose} {order : Nat} {M : Material α β} (hM : SymmetricLaw M.bond)
    {a : α} {o : β} {nbs : List (List Nat)} {A : Harm → Prop} {s : State α β} (hrun : Run B D order M a o nbs A s)
    {dt : ℝ} {H : Harm} {y v : Nat → V3} {g : Ghosts} {r : Result α β}
    (h : evaluation B D order M dt H y v g s nbs.length (encode nbs) = .ok r) (k : Nat) :
    (r.arrays.bonds k).stress.toMatrixᵀ = (r.arrays.bonds k).stress.toMatrix := by
  have key : (∀ k, (s.now.bonds k).stress.toMatrixᵀ = (s.now.bonds k).stress.toMatrix) ∧
      ∀ k, (s.found.bonds k).stress.toMatrixᵀ = (s.found.bonds k).stress.toMatrix := by
    clear h
    induction hrun with
    | start =>
      have e : ∀ k, ((initialState a o).now.bonds k).stress.toMatrixᵀ = ((initialState a o).now.bonds k).stress.toMatrix := by
        intro k
        show (Tensor.zero).toMatrixᵀ = (Tensor.zero).toMatrix
        rw [toMatrix_zero, transpose_zero]
      exact ⟨e, e⟩
    | step _ _ h ih => exact ⟨symmetric_step hM h ih.1 ih.2, ih.1⟩
    | again _ _ h ih => exact ⟨ih.1, symmetric_step hM h ih.1 ih.2⟩
  exact symmetric_step hM h key.1 key.2 k

example : SymmetricLaw (elastic 3 1).bond ∧ SymmetricLaw (perfect 3 1 2).bond ∧ SymmetricLaw (power 3 1 2 1 (1 / 2)).bond ∧
    ∃ (D : Decompose) (s : State Unit ℝ) (r : Result Unit ℝ), D.Correct ∧
    Run quad D 1 (elastic 3 1) () 0 tetraNbs (Grounded tetraNbs) s ∧
    evaluation quad D 1 (elastic 3 1) 1 calm corner swirl still s tetraNbs.length (encode tetraNbs) = .ok r ∧
    ∀ p < tetraNbs.length, WellPlaced (current quad s.jacobian corner) 1 calm.bondDamage tetraNbs p := by
  obtain ⟨D, hD, s, hs, hJ, -, r, hr⟩ := quad_case
  exact ⟨elastic_symmetric _ _, perfect_symmetric _ _ _, powerBond_symmetric _ _ _, D, s, r, hD, hs, hr,
    fun p hp => quad_placed hJ (fun _ => rfl) hp⟩

/-! ### C166 -/

theorem rigid_stress (bulk shear dt : ℝ) {L R sigma : M9} {o : ℝ} {q : M9 × Unit × ℝ} (hL : L.toMatrixᵀ = -L.toMatrix)
    (h : elasticLaw bulk shear dt (unrotated L R) sigma () o = .ok q) : q.1 = sigma := by
  cases h
  apply toMatrix_injective
  have hz : (unrotated L R).toMatrix = 0 := by
    rw [unrotated_eq, hL, add_neg_cancel, smul_zero, Matrix.mul_zero, Matrix.zero_mul]
  show (elasticPoint bulk shear dt none (unrotated L R) sigma).toMatrix = _
  rw [Verif.Assoc.elastic_eq, Verif.Correspondence.diagSum_eq, Verif.Correspondence.toMatrix_scaled, hz]
  simp [dev, mean]

/-- **C166** With the velocity of a rigid motion at the current positions neither the Jacobian determinants nor the unrotated stresses
of the elastic material change. -/
theorem C166_rigid {B : Block} {D : Decompose} (hD : D.Correct) {order : Nat} {bulk shear : ℝ} {dt : ℝ} {H : Harm}
    {y v : Nat → V3} {g : Ghosts} {s : State Unit ℝ} {nbs : List (List Nat)} {r : Result Unit ℝ}
    (h : evaluation B D order (elastic bulk shear) dt H y v g s nbs.length (encode nbs) = .ok r) (hN : Within nbs nbs.length)
    (hf : ∀ p, H.flag p < 0) (hh : 0 < B.horizon)
    (hw : ∀ p < nbs.length, WellPlaced (current B s.jacobian y) order H.bondDamage nbs p)
    {W : Matrix (Fin 3) (Fin 3) ℝ} {c : V3} (hW : Wᵀ = -W) (hv : ∀ k, v k = W *ᵥ y k + c) :
    (∀ p < nbs.length, r.pre.jacobian p = s.jacobian p ∧ (r.arrays.nodes p).stress = (s.now.nodes p).stress) ∧
    ∀ b ∈ bondsOf nbs, (r.arrays.bonds b.b).stress = (s.now.bonds b.b).stress := by
  obtain ⟨hpre, hp⟩ := evaluation_parts h
  obtain ⟨g1, g2⟩ := affine_pre hD hpre hN hf hh hw hv
  have ht : W.trace = 0 := by
    have := congrArg trace hW
    rw [trace_transpose, trace_neg] at this
    linarith
  refine ⟨fun p hlt => ⟨?_, ?_⟩, fun b hb => ?_⟩
  · have hfp : H.flag p < 1 / 2 := (hf p).trans (by norm_num)
    have e := g1 p hlt
    rw [hpre.grad, if_pos hlt, if_pos hfp] at e
    have e2 : ∀ L : M9, velGradTr L = L.toMatrix.trace := fun L => by
      simp [velGradTr, trace, Fin.sum_univ_three, M9.toMatrix]
    rw [hpre.jacobian, if_pos hlt, if_pos hfp, e2, e, ht, zero_mul, add_zero, mul_one]
  · obtain ⟨-, -, e⟩ := advance_parts (hp.node p hlt (hf p))
    exact rigid_stress (o := s.nodeExtra p) bulk shear dt (by rw [g1 p hlt, hW]) e
  · obtain ⟨-, -, e⟩ := advance_parts (hp.bond b hb (hf _))
    exact rigid_stress (o := s.bondExtra b.b) bulk shear dt (by rw [hp.bondGrad b hb (hf _), g2 b hb, hW]) e

example : ∃ (D : Decompose) (s : State Unit ℝ) (r : Result Unit ℝ), D.Correct ∧
    evaluation quad D 1 (elastic 3 1) 1 calm corner swirl still s tetraNbs.length (encode tetraNbs) = .ok r ∧
    (∀ p < tetraNbs.length, WellPlaced (current quad s.jacobian corner) 1 calm.bondDamage tetraNbs p) ∧
    Verif.Assoc.spin0ᵀ = -Verif.Assoc.spin0 ∧ (∀ k, swirl k = Verif.Assoc.spin0 *ᵥ corner k + 0) ∧
    ∀ b ∈ bondsOf tetraNbs, (s.now.bonds b.b).stress = ⟨2, 0, 0, 0, -2, 0, 0, 0, 0⟩ := by
  obtain ⟨D, hD, s, -, hJ, h0, r, hr⟩ := quad_case
  exact ⟨D, s, r, hD, hr, fun p hp => quad_placed hJ (fun _ => rfl) hp, Verif.Assoc.spin0_skew, fun _ => rfl, fun b hb => (h0 b hb).1⟩

/-- **C166** The left stretches and the Cauchy stresses are carried along: with the angular velocity `o` the rate of the left stretch
is `S V - V S`, and the Cauchy stress is multiplied from both sides by the matrix with which the code rotates. -/
theorem C166_carried {B : Block} {D : Decompose} (hD : D.Correct) {order : Nat} {bulk shear : ℝ} {dt : ℝ} {H : Harm}
    {y v : Nat → V3} {g : Ghosts} {s : State Unit ℝ} {nbs : List (List Nat)} {r : Result Unit ℝ}
    (h : evaluation B D order (elastic bulk shear) dt H y v g s nbs.length (encode nbs) = .ok r) (hN : Within nbs nbs.length)
    (hf : ∀ p, H.flag p < 0) (hh : 0 < B.horizon)
    (hw : ∀ p < nbs.length, WellPlaced (current B s.jacobian y) order H.bondDamage nbs p)
    {o c : V3} (hv : ∀ k, v k = axial o *ᵥ y k + c) {b : Bond} (hb : b ∈ bondsOf nbs) :
    (r.arrays.bonds b.b).stretch.toMatrix = (s.now.bonds b.b).stretch.toMatrix +
      dt • (axial o * (s.now.bonds b.b).stretch.toMatrix - (s.now.bonds b.b).stretch.toMatrix * axial o) ∧
    (r.arrays.bonds b.b).rotation.toMatrix = (qMatrix dt o).toMatrix * (s.now.bonds b.b).rotation.toMatrix ∧
    (r.bondCauchy b.b).toMatrix = (qMatrix dt o).toMatrix * ((s.now.bonds b.b).rotation.toMatrix * (s.now.bonds b.b).stress.toMatrix *
      (s.now.bonds b.b).rotation.toMatrixᵀ) * (qMatrix dt o).toMatrixᵀ := by
  obtain ⟨hpre, hp⟩ := evaluation_parts h
  have hL : (r.bondGrad b.b).toMatrix = axial o := by
    rw [hp.bondGrad b hb (hf _), (affine_pre hD hpre hN hf hh hw hv).2 b hb]
  obtain ⟨e1, e2, -⟩ := advance_parts (hp.bond b hb (hf _))
  have hR : (r.arrays.bonds b.b).rotation.toMatrix = (qMatrix dt o).toMatrix * (s.now.bonds b.b).rotation.toMatrix := by
    rw [e2, newRotation_eq, spin_axial hL]
  refine ⟨?_, hR, ?_⟩
  · rw [e1, newStretch, toMatrix_addScaled, toMatrix_sub9, toMatrix_mm, toMatrix_mm, hL, spin_axial hL, omegaTensor_eq]
  · rw [hp.bondCauchy, rotateStress, toMatrix_mm, toMatrix_mmT, hR,
      (C166_rigid hD h hN hf hh hw (axial_transpose o) hv).2 b hb, transpose_mul, one_smul]
    simp only [Matrix.mul_assoc]

example : ∃ (D : Decompose) (s : State Unit ℝ) (r : Result Unit ℝ), D.Correct ∧
    evaluation quad D 1 (elastic 3 1) 1 calm corner swirl still s tetraNbs.length (encode tetraNbs) = .ok r ∧
    (∀ p < tetraNbs.length, WellPlaced (current quad s.jacobian corner) 1 calm.bondDamage tetraNbs p) ∧
    ∀ k, swirl k = axial ![0, 0, 1] *ᵥ corner k + 0 := by
  obtain ⟨D, hD, s, -, hJ, -, r, hr⟩ := quad_case
  have e : Verif.Assoc.spin0 = axial ![0, 0, 1] := by
    ext i j
    fin_cases i <;> fin_cases j <;> simp [Verif.Assoc.spin0, axial]
  exact ⟨D, s, r, hD, hr, fun p hp => quad_placed hJ (fun _ => rfl) hp, fun k => by rw [← e]; rfl⟩

theorem trace_rotation {Q : Matrix (Fin 3) (Fin 3) ℝ} (hQ : Qᵀ * Q = 1) (h1 : Q ≠ 1) : Q.trace < 3 := by
  have e : ((Q - 1)ᵀ * (Q - 1)).trace = 6 - 2 * Q.trace := by
    rw [transpose_sub, transpose_one, Matrix.sub_mul, Matrix.mul_sub, Matrix.mul_sub, hQ, Matrix.mul_one, Matrix.one_mul, Matrix.one_mul,
      trace_sub, trace_sub, trace_sub, trace_transpose, trace_one, Fintype.card_fin]
    push_cast
    ring
  have hne : ((Q - 1)ᵀ * (Q - 1)).trace ≠ 0 := by
    intro h0
    apply h1
    have hz : ∀ i j, (Q - 1) j i = 0 := by
      simp only [trace, diag, Matrix.mul_apply, transpose_apply] at h0
      intro i j
      have h2 := (Finset.sum_eq_zero_iff_of_nonneg fun i _ => Finset.sum_nonneg fun j _ => mul_self_nonneg ((Q - 1) j i)).mp h0 i
        (Finset.mem_univ _)
      exact mul_self_eq_zero.mp ((Finset.sum_eq_zero_iff_of_nonneg fun j _ => mul_self_nonneg ((Q - 1) j i)).mp h2 j (Finset.mem_univ _))
    exact sub_eq_zero.mp (Matrix.ext fun i j => hz j i)
  have hnn : 0 ≤ ((Q - 1)ᵀ * (Q - 1)).trace := by
    simp only [trace, diag, Matrix.mul_apply, transpose_apply]
    exact Finset.sum_nonneg fun i _ => Finset.sum_nonneg fun j _ => mul_self_nonneg _
  have := lt_of_le_of_ne hnn hne.symm
  linarith

/-- **C166** But in a step that takes the points from old positions to rotated ones, with the velocities that take them there, the
velocity gradient at the new positions is not skew: in each such step the Jacobian determinants grow by the factor `4 - tr Q`,
which exceeds one unless the rotation is trivial. -/
theorem C166_growth_fails {α β : Type} {B : Block} {D : Decompose} (hD : D.Correct) {order : Nat} {M : Material α β} {dt : ℝ} {H : Harm}
    {y v : Nat → V3} {g : Ghosts} {s : State α β} {nbs : List (List Nat)} {r : Result α β}
    (h : evaluation B D order M dt H y v g s nbs.length (encode nbs) = .ok r) (hN : Within nbs nbs.length)
    (hf : ∀ p, H.flag p < 0) (hh : 0 < B.horizon)
    (hw : ∀ p < nbs.length, WellPlaced (current B s.jacobian y) order H.bondDamage nbs p)
    (hdt : dt ≠ 0) {Q : Matrix (Fin 3) (Fin 3) ℝ} (hQ : Qᵀ * Q = 1) {c : V3} {y0 : Nat → V3} (hy : ∀ k, y k = Q *ᵥ y0 k + c)
    (hv : ∀ k, y k = y0 k + dt • v k) {p : Nat} (hp : p < nbs.length) :
    r.pre.jacobian p = s.jacobian p * (4 - Q.trace) ∧ (Q ≠ 1 → 0 < s.jacobian p → s.jacobian p < r.pre.jacobian p) := by
  have hpre := (evaluation_parts h).1
  have hfp : H.flag p < 1 / 2 := (hf p).trans (by norm_num)
  have h0 : ∀ k, y0 k = Qᵀ *ᵥ y k - Qᵀ *ᵥ c := by
    intro k
    rw [hy k, mulVec_add, mulVec_mulVec, hQ, one_mulVec]
    abel
  have e := (affine_pre hD hpre hN hf hh hw (A := dt⁻¹ • (1 - Qᵀ)) (a := dt⁻¹ • (Qᵀ *ᵥ c)) (fun k => by
    have e1 : dt • v k = y k - y0 k := by
      conv_rhs => rw [hv k]
      abel
    have e2 : v k = dt⁻¹ • (dt • v k) := by rw [smul_smul, inv_mul_cancel₀ hdt, one_smul]
    rw [e2, e1, h0 k, smul_mulVec, sub_mulVec, one_mulVec, ← smul_add]
    congr 1
    abel)).1 p hp
  rw [hpre.grad, if_pos hp, if_pos hfp] at e
  have e2 : ∀ L : M9, velGradTr L = L.toMatrix.trace := fun L => by
    simp [velGradTr, trace, Fin.sum_univ_three, M9.toMatrix]
  have key : r.pre.jacobian p = s.jacobian p * (4 - Q.trace) := by
    rw [hpre.jacobian, if_pos hp, if_pos hfp, e2, e, trace_smul, trace_sub, trace_transpose, trace_one, Fintype.card_fin, smul_eq_mul]
    push_cast
    field_simp
    ring
  refine ⟨key, fun h1 hJ => ?_⟩
  rw [key]
  have := trace_rotation hQ h1
  nlinarith

/-- A quarter turn about the third axis. -/
def quarter : Matrix (Fin 3) (Fin 3) ℝ := !![0, -1, 0; 1, 0, 0; 0, 0, 1]

theorem quarter_orthogonal : quarterᵀ * quarter = 1 := by
  ext i j
  fin_cases i <;> fin_cases j <;> simp [quarter, Matrix.mul_apply, Fin.sum_univ_three]

example : quarterᵀ * quarter = 1 ∧ quarter ≠ 1 ∧ ∃ (r : Result Unit ℝ) (y0 v : Nat → V3),
    evaluation quad plain 1 (elastic 3 1) 1 calm corner v still (initialState () 0) tetraNbs.length (encode tetraNbs) = .ok r ∧
    (∀ k, corner k = quarter *ᵥ y0 k + 0) ∧ (∀ k, corner k = y0 k + (1 : ℝ) • v k) ∧
    (∀ p < tetraNbs.length, WellPlaced (current quad (initialState () (0 : ℝ)).jacobian corner) 1 calm.bondDamage tetraNbs p) ∧
    0 < (initialState () (0 : ℝ)).jacobian 0 := by
  obtain ⟨r, hr⟩ := quad_defined plain (M := elastic 3 1) (elastic_total 3 1) (elastic_total 3 1) 1 calm
    (fun k => corner k - quarterᵀ *ᵥ corner k) still (s := initialState () 0) rfl
  refine ⟨quarter_orthogonal, ?_, r, fun k => quarterᵀ *ᵥ corner k, _, hr, fun k => ?_, fun k => ?_,
    fun p hp => quad_placed rfl (fun _ => rfl) hp, one_pos⟩
  · intro e
    have := congrFun (congrFun e 0) 0
    simp [quarter] at this
  · rw [mulVec_mulVec, mul_eq_one_comm.mp quarter_orthogonal, one_mulVec, add_zero]
  · rw [one_smul]
    abel

/-! ### C168 -/

theorem newGradient_eq (dt : ℝ) (L F : M9) : (newGradient dt L F).toMatrix = (1 + dt • L.toMatrix) * F.toMatrix := by
  rw [newGradient, toMatrix_addScaled, toMatrix_mm, Matrix.add_mul, Matrix.one_mul, smul_mul_assoc]

theorem det_one_add (dt : ℝ) (L : Matrix (Fin 3) (Fin 3) ℝ) :
    (1 + dt • L).det = 1 + dt * L.trace + dt ^ 2 * ((L.trace ^ 2 - (L * L).trace) / 2) + dt ^ 3 * L.det := by
  simp [det_fin_three, trace_fin_three, Matrix.mul_apply, Fin.sum_univ_three]
  ring

/-- **C168** Where the Jacobian determinant is the determinant of the deformation gradient, after a step it falls short of it by the
second and third invariants of the velocity gradient times the second and third power of the time step. -/
theorem C168_gap {α β : Type} {B : Block} {D : Decompose} {order : Nat} {M : Material α β} {dt : ℝ} {H : Harm}
    {y v : Nat → V3} {g : Ghosts} {s : State α β} {nbs : List (List Nat)} {r : Result α β}
    (h : evaluation B D order M dt H y v g s nbs.length (encode nbs) = .ok r) {p : Nat} (hp : p < nbs.length) (hf : H.flag p < 0)
    (hJ : s.jacobian p = (s.now.grad p).toMatrix.det) :
    (r.arrays.grad p).toMatrix.det = r.pre.jacobian p + (s.now.grad p).toMatrix.det *
      (dt ^ 2 * (((r.pre.grad p).toMatrix.trace ^ 2 - ((r.pre.grad p).toMatrix * (r.pre.grad p).toMatrix).trace) / 2) +
        dt ^ 3 * (r.pre.grad p).toMatrix.det) := by
  obtain ⟨hpre, hparts⟩ := evaluation_parts h
  have hfp : H.flag p < 1 / 2 := hf.trans (by norm_num)
  have e2 : ∀ L : M9, velGradTr L = L.toMatrix.trace := fun L => by
    simp [velGradTr, trace, Fin.sum_univ_three, M9.toMatrix]
  have e : r.pre.jacobian p = s.jacobian p * (1 + (r.pre.grad p).toMatrix.trace * dt) := by
    rw [hpre.jacobian, if_pos hp, if_pos hfp, e2, hpre.grad, if_pos hp, if_pos hfp]
  rw [hparts.grad, if_pos ⟨hp, hf⟩, newGradient_eq, det_mul, det_one_add, e, hJ]
  ring

example : ∃ r : Result Unit ℝ, evaluation quad plain 1 (elastic 3 1) 1 calm corner swirl still (initialState () 0) tetraNbs.length
    (encode tetraNbs) = .ok r ∧ (initialState () (0 : ℝ)).jacobian 0 = ((initialState () (0 : ℝ)).now.grad 0).toMatrix.det := by
  obtain ⟨r, hr⟩ := quad_defined plain (M := elastic 3 1) (elastic_total 3 1) (elastic_total 3 1) 1 calm swirl still
    (s := initialState () 0) rfl
  refine ⟨r, hr, ?_⟩
  show (1 : ℝ) = identity.toMatrix.det
  rw [toMatrix_identity, det_one]

/-- **C168** So after a step of uniform expansion the Jacobian determinant is 4 where the deformation gradient has determinant 8. -/
theorem C168_expansion_fails : ∃ (B : Block) (D : Decompose) (H : Harm) (y v : Nat → V3) (g : Ghosts) (nbs : List (List Nat))
    (r : Result Unit ℝ), D.Correct ∧ evaluation B D 1 (elastic 3 1) 1 H y v g (initialState () 0) nbs.length (encode nbs) = .ok r ∧
    (∀ k, v k = y k) ∧ ∀ p < nbs.length, r.pre.jacobian p = 4 ∧ (r.arrays.grad p).toMatrix.det = 8 := by
  obtain ⟨r, hr⟩ := quad_defined plain (M := elastic 3 1) (elastic_total 3 1) (elastic_total 3 1) 1 calm corner still
    (s := initialState () 0) rfl
  refine ⟨quad, plain, calm, corner, corner, still, tetraNbs, r, plain_correct, hr, fun _ => rfl, fun p hp => ?_⟩
  obtain ⟨hpre, hparts⟩ := evaluation_parts hr
  have hf : ∀ p, calm.flag p < 0 := fun _ => by norm_num [calm]
  have hfp : calm.flag p < 1 / 2 := (hf p).trans (by norm_num)
  have e := (affine_pre plain_correct hpre Verif.Assoc.tetra_within hf (by norm_num [quad])
    (fun p hp => quad_placed rfl (fun _ => rfl) hp) (A := 1) (a := 0) (fun k => by rw [one_mulVec, add_zero])).1 p hp
  have e2 : ∀ L : M9, velGradTr L = L.toMatrix.trace := fun L => by
    simp [velGradTr, trace, Fin.sum_univ_three, M9.toMatrix]
  have e3 : r.pre.jacobian p = 1 * (1 + (r.pre.grad p).toMatrix.trace * 1) := by
    rw [hpre.jacobian, if_pos hp, if_pos hfp, e2, hpre.grad, if_pos hp, if_pos hfp]
    rfl
  constructor
  · rw [e3, e, trace_one, Fintype.card_fin]
    norm_num
  · rw [C168_gap hr hp (hf p) (by show (1 : ℝ) = identity.toMatrix.det; rw [toMatrix_identity, det_one]), e3, e]
    show _ + identity.toMatrix.det * _ = _
    rw [toMatrix_identity, Matrix.one_mul, det_one, trace_one, Fintype.card_fin]
    norm_num

/-- **C168** The strain that is written is half of `FᵀF - 1` of the new deformation gradient. -/
theorem C168_strain {α β : Type} {B : Block} {D : Decompose} {order : Nat} {M : Material α β} {dt : ℝ} {H : Harm}
    {y v : Nat → V3} {g : Ghosts} {s : State α β} {nbs : List (List Nat)} {r : Result α β}
    (h : evaluation B D order M dt H y v g s nbs.length (encode nbs) = .ok r) {p : Nat} (hp : p < nbs.length) (hf : H.flag p < 0) :
    (r.strain p).toMatrix = (1 / 2 : ℝ) • (((1 + dt • (r.pre.grad p).toMatrix) * (s.now.grad p).toMatrix)ᵀ *
      ((1 + dt • (r.pre.grad p).toMatrix) * (s.now.grad p).toMatrix) - 1) := by
  have hparts := (evaluation_parts h).2
  rw [hparts.strain, greenLagrange, Verif.Correspondence.toMatrix_scaled, Verif.Correspondence.toMatrix_diagAdd,
    matrixMultiply_eq, hparts.grad, if_pos (⟨hp, hf⟩ : p < nbs.length ∧ H.flag p < 0)]
  simp only [if_true, one_smul, neg_smul, ← sub_eq_add_neg, Bool.false_eq_true, if_false, newGradient_eq]
  congr 1
  norm_num

example : ∃ r : Result Unit ℝ, evaluation quad plain 1 (elastic 3 1) 1 calm corner swirl still (initialState () 0) tetraNbs.length
    (encode tetraNbs) = .ok r ∧ calm.flag 0 < 0 := by
  obtain ⟨r, hr⟩ := quad_defined plain (M := elastic 3 1) (elastic_total 3 1) (elastic_total 3 1) 1 calm swirl still
    (s := initialState () 0) rfl
  exact ⟨r, hr, by norm_num [calm]⟩

/-- **C168** But with the velocity of a rigid motion the strain does not stay zero: it becomes half of `dt² WᵀW`. -/
theorem C168_rotation_fails {α β : Type} {B : Block} {D : Decompose} (hD : D.Correct) {order : Nat} {M : Material α β} {dt : ℝ} {H : Harm}
    {y v : Nat → V3} {g : Ghosts} {s : State α β} {nbs : List (List Nat)} {r : Result α β}
    (h : evaluation B D order M dt H y v g s nbs.length (encode nbs) = .ok r) (hN : Within nbs nbs.length)
    (hf : ∀ p, H.flag p < 0) (hh : 0 < B.horizon)
    (hw : ∀ p < nbs.length, WellPlaced (current B s.jacobian y) order H.bondDamage nbs p)
    {W : Matrix (Fin 3) (Fin 3) ℝ} {c : V3} (hW : Wᵀ = -W) (hv : ∀ k, v k = W *ᵥ y k + c) {p : Nat} (hp : p < nbs.length)
    (hF : (s.now.grad p).toMatrix = 1) : (r.strain p).toMatrix = (1 / 2 * dt ^ 2) • (Wᵀ * W) := by
  have hpre := (evaluation_parts h).1
  rw [C168_strain h hp (hf p), (affine_pre hD hpre hN hf hh hw hv).1 p hp, hF, Matrix.mul_one, transpose_add, transpose_one,
    transpose_smul, hW, Matrix.add_mul, Matrix.mul_add, Matrix.mul_add]
  simp only [Matrix.one_mul, Matrix.mul_one, smul_mul_assoc, mul_smul_comm, smul_neg, Matrix.neg_mul, smul_smul]
  have e : (1 : Matrix (Fin 3) (Fin 3) ℝ) + dt • W + (-(dt • W) + -((dt * dt) • (W * W))) - 1 = (dt ^ 2) • (-(W * W)) := by
    rw [smul_neg, pow_two]
    abel
  rw [e, smul_smul, smul_neg]

example : ∃ r : Result Unit ℝ, evaluation quad plain 1 (elastic 3 1) 1 calm corner swirl still (initialState () 0) tetraNbs.length
    (encode tetraNbs) = .ok r ∧ Verif.Assoc.spin0ᵀ = -Verif.Assoc.spin0 ∧ (Verif.Assoc.spin0ᵀ * Verif.Assoc.spin0) 0 0 ≠ 0 ∧
    ((initialState () (0 : ℝ)).now.grad 0).toMatrix = 1 := by
  obtain ⟨r, hr⟩ := quad_defined plain (M := elastic 3 1) (elastic_total 3 1) (elastic_total 3 1) 1 calm swirl still
    (s := initialState () 0) rfl
  refine ⟨r, hr, Verif.Assoc.spin0_skew, ?_, toMatrix_identity⟩
  simp [Verif.Assoc.spin0, Matrix.mul_apply, Fin.sum_univ_three]

end Verif.Hypo
