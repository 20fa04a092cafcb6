import Verif.Assoc.BalanceProps
import Verif.Correspondence.RotLemmas

/-!
# Bond-associated correspondence material: affine and rigid motions

C141: both copies of a bond agree; the gradient at a bond maps the bond to its present position.
C142: rigid motions.
-/

noncomputable section

namespace Verif.Assoc

open Verif Verif.Neigh Verif.Mech Verif.Tensor Matrix
open Verif.Correspondence (bondsAt addOuter identity newStretch newRotation unrotated rotateStress mem_bondsAt
  foldl_addOuter toMatrix_mm toMatrix_mmT toMatrix_identity twist twist_outer twist_symm sum_map_linear unrotated_eq
  elasticPoint elasticStress_eq axial axial_transpose qMatrix newRotation_eq spin_axial omegaTensor_eq toMatrix_addScaled toMatrix_sub9)
open scoped Classical

/-! ### C141 -/

/-- **C141** In a run both copies of each bond have the same influence and stress. -/
theorem C141_paired {B : Body} {D : Decompose} {order : Nat} {U : Update} {nbs : List (List Nat)} (hU : Local nbs U) {ghost : Nat → ℝ}
    (hB : ∀ p q, HasBond nbs p q → B.horizon p = B.horizon q) {d : Nat → ℝ} {s : State}
    (hrun : Run B D order U ghost nbs (Tame nbs) d s) {dt : ℝ} {H : Harm} (hH : Tame nbs d H) {u y v : Nat → V3}
    {g : Ghosts} {r : Result} (h : evaluation B D order U dt H u y v g s nbs.length (encode nbs) = .ok r) :
    Paired nbs r.pre.weights.omega ∧ Paired nbs r.stress ∧ Paired nbs r.piola := by
  obtain ⟨hs, hps⟩ := paired_run hU hB hrun
  obtain ⟨h1, h2, h3⟩ := paired_step hU hB hH.reported hs hH.paired hps h
  exact ⟨h1, h3.stress, h2⟩

example : Local tetraNbs (elasticUpdate 3 1) ∧ Whole tetra tetraNbs ∧ Tame tetraNbs (fun _ => 0) intact ∧ ∃ (D : Decompose) (s : State) (r : Result),
    Run tetra D 1 (elasticUpdate 3 1) (fun _ => 0) tetraNbs (Tame tetraNbs) (fun _ => 0) s ∧
    evaluation tetra D 1 (elasticUpdate 3 1) 1 intact u0 y0 v0 g0 s tetraNbs.length (encode tetraNbs) = .ok r := by
  obtain ⟨D, _, s, hs, -, r, hr⟩ := tetra_case
  exact ⟨elastic_local tetraNbs 3 1, tetra_whole, intact_tame, D, s, r, hs, hr⟩

/-- **C141** The deformation gradient of a bond maps the bond to its present position, whatever the gradients at its ends. -/
theorem C141_follows (B : Body) (grad : Nat → M9) (y : Nat → V3) (b : Bond) (hb : B.x b.i ≠ B.x b.j) :
    (bondGradient B grad y b).toMatrix *ᵥ (B.x b.j - B.x b.i) = y b.j - y b.i := by
  have hl : xi B b ⬝ᵥ xi B b ≠ 0 := by
    intro h0
    exact hb (sub_eq_zero.mp (dotProduct_self_eq_zero.mp h0)).symm
  rw [bondGradient, toMatrix_corrected]
  show (_ + _) *ᵥ xi B b = _
  rw [add_mulVec, smul_mulVec, outer_self, smul_smul, lenSq_eq, one_div, inv_mul_cancel₀ hl, one_smul, add_sub_cancel]

example : tetra.x 0 ≠ tetra.x 1 ∧ y0 2 - y0 0 = ![1, 1, 0] := by
  constructor
  · intro h
    have := congrFun h 0
    simp [tetra, corner] at this
  · funext c
    fin_cases c <;> simp [y0, shear0, tetra, corner, mulVec, dotProduct, Fin.sum_univ_three]

/-- **C141** If the displacement is affine and the neighbors of all points determine affine fields, the deformation
gradients of the bonds are exact, and so are their rates for an affine velocity. -/
theorem C141_affine {B : Body} {D : Decompose} (hD : D.Correct) {order : Nat} {U : Update} {ghost : Nat → ℝ}
    {nbs : List (List Nat)} (hN : Within nbs nbs.length) {d : Nat → ℝ} {s : State}
    (hrun : Run B D order U ghost nbs (Reported nbs) d s) {dt : ℝ} {H : Harm} (hr : Reported nbs d H)
    {u y v : Nat → V3} {g : Ghosts} {r : Result}
    (h : evaluation B D order U dt H u y v g s nbs.length (encode nbs) = .ok r)
    (hh : ∀ p < nbs.length, 0 < B.horizon p) (hw : ∀ p < nbs.length, WellPlaced B order H.bondDamage nbs p)
    {F A : Matrix (Fin 3) (Fin 3) ℝ} {f a : V3} (hu : ∀ k, u k = y k - B.x k) (hy : ∀ k, y k = F *ᵥ B.x k + f)
    (hv : ∀ k, v k = A *ᵥ B.x k + a) {b : Bond} (hb : b ∈ bondsOf nbs) :
    (bondGradient B r.pre.grad y b).toMatrix = F ∧ (bondGradient B r.pre.gradDot v b).toMatrix = A :=
  (affine_pre hD hN (sound_run hrun) hr (evaluation_parts h).1 hh hw hu hy hv).2 b hb

example : ∃ (D : Decompose) (s : State) (r : Result), D.Correct ∧ Within tetraNbs tetraNbs.length ∧
    Run tetra D 1 (elasticUpdate 3 1) (fun _ => 0) tetraNbs (Reported tetraNbs) (fun _ => 0) s ∧
    evaluation tetra D 1 (elasticUpdate 3 1) 1 intact u0 y0 v0 g0 s tetraNbs.length (encode tetraNbs) = .ok r ∧
    (∀ p < tetraNbs.length, WellPlaced tetra 1 intact.bondDamage tetraNbs p) ∧ (∀ k, u0 k = y0 k - tetra.x k) ∧
    (∀ k, y0 k = shear0 *ᵥ tetra.x k + 0) ∧ ∀ k, v0 k = (spin0 * shear0) *ᵥ tetra.x k + 0 := by
  obtain ⟨D, hD, s, hs, -, r, hr⟩ := tetra_case
  exact ⟨D, s, r, hD, tetra_within, hs.mono fun _ _ a => a.reported, hr, fun p hp => tetra_placed (fun _ => rfl) hp, fun _ => rfl,
    fun _ => rfl, fun k => by rw [v0, y0, mulVec_add, mulVec_mulVec, mulVec_zero, add_zero]⟩

/-! ### C142 -/

/-- **C142** A body that has been deformed affinely and moves rigidly has no rate of deformation, so that the stresses of
the elastic material do not change. -/
theorem C142_rigid {B : Body} {D : Decompose} (hD : D.Correct) {order : Nat} {bulk shear : ℝ} {ghost : Nat → ℝ}
    {nbs : List (List Nat)} (hN : Within nbs nbs.length) {d : Nat → ℝ} {s : State}
    (hrun : Run B D order (elasticUpdate bulk shear) ghost nbs (Reported nbs) d s) {dt : ℝ} {H : Harm} (hr : Reported nbs d H)
    {u y v : Nat → V3} {g : Ghosts} {r : Result}
    (h : evaluation B D order (elasticUpdate bulk shear) dt H u y v g s nbs.length (encode nbs) = .ok r)
    (hh : ∀ p < nbs.length, 0 < B.horizon p) (hw : ∀ p < nbs.length, WellPlaced B order H.bondDamage nbs p)
    {F W : Matrix (Fin 3) (Fin 3) ℝ} {f c : V3} (hu : ∀ k, u k = y k - B.x k) (hy : ∀ k, y k = F *ᵥ B.x k + f)
    (hW : Wᵀ = -W) (hv : ∀ k, v k = W *ᵥ y k + c) (k : Nat) : r.stress k = s.stress k := by
  have hp := (force_parts (evaluation_parts h).2).2
  have hrate : r.kin.rate k = zero := by
    obtain ⟨ha, hb⟩ := kin_fold (bondsOf_nodup nbs) hp.kin
    by_cases hk : k ∈ (bondsOf nbs).map (·.b)
    · obtain ⟨b, hbm, rfl⟩ := List.mem_map.1 hk
      by_cases ho : 0 < r.pre.weights.omega b.b
      · obtain ⟨-, hi, -, -, -, -, e⟩ := (ha b hbm).1.active ho
        obtain ⟨g1, g2⟩ := C141_affine hD hN hrun hr h hh hw (F := F) (A := W * F) (f := f) (a := W *ᵥ f + c) hu hy
          (fun k => by rw [hv, hy, mulVec_add, mulVec_mulVec, add_assoc]) hbm
        have hinv := product_invert3 ((invert3_code _).mp hi)
        rw [g1] at hinv
        apply toMatrix_injective
        rw [e, unrotated_eq, toMatrix_mm, g2, Matrix.mul_assoc W F, hinv, Matrix.mul_one, hW, add_neg_cancel, smul_zero,
          Matrix.mul_zero, Matrix.zero_mul, toMatrix_zero]
      · exact ((ha b hbm).1.idle ho).2.2
    · exact (hb k hk).2.2.2.2
  have e : r.stress k = elasticPoint bulk shear dt none (r.kin.rate k) (s.stress k) := by
    have hst := hp.stress
    have : r.stress = fun b => elasticPoint bulk shear dt none (r.kin.rate b) (s.stress b) := by
      unfold elasticUpdate at hst
      injection hst with hst
      exact hst.symm
    rw [this]
  apply toMatrix_injective
  rw [e, elastic_eq, hrate, toMatrix_zero]
  have hz : Verif.Correspondence.diagSum (Verif.Correspondence.scaled zero dt) = 0 := by
    rw [Verif.Correspondence.diagSum_eq, Verif.Correspondence.toMatrix_scaled, toMatrix_zero, smul_zero, trace_zero]
  rw [hz]
  simp [Verif.Correspondence.dev, Verif.Correspondence.mean]

example : ∃ (D : Decompose) (s : State) (r : Result), D.Correct ∧
    Run tetra D 1 (elasticUpdate 3 1) (fun _ => 0) tetraNbs (Reported tetraNbs) (fun _ => 0) s ∧
    (∀ b ∈ bondsOf tetraNbs, s.stress b.b ≠ zero) ∧
    evaluation tetra D 1 (elasticUpdate 3 1) 1 intact u0 y0 v0 g0 s tetraNbs.length (encode tetraNbs) = .ok r ∧
    (∀ p < tetraNbs.length, WellPlaced tetra 1 intact.bondDamage tetraNbs p) ∧ spin0ᵀ = -spin0 ∧ ∀ k, v0 k = spin0 *ᵥ y0 k + 0 := by
  obtain ⟨D, hD, s, hs, h0, r, hr⟩ := tetra_case
  exact ⟨D, s, r, hD, hs.mono fun _ _ a => a.reported, h0, hr, fun p hp => tetra_placed (fun _ => rfl) hp, spin0_skew, fun _ => rfl⟩

/-- **C142** Without stress there are no forces. -/
theorem C142_still {B : Body} {D : Decompose} {order : Nat} {U : Update} {dt : ℝ} {H : Harm} {u y v : Nat → V3}
    {g : Ghosts} {s : State} {nbs : List (List Nat)} {r : Result}
    (h : evaluation B D order U dt H u y v g s nbs.length (encode nbs) = .ok r)
    (hs : ∀ b ∈ bondsOf nbs, r.stress b.b = zero) (k : Nat) : r.force k = 0 := by
  have hp := (force_parts (evaluation_parts h).2).2
  have hpi : ∀ b ∈ bondsOf nbs, (r.piola b.b).toMatrix = 0 := by
    intro b hb
    rw [hp.piola, hp.cauchy, hs b hb, piolaBond, toMatrix_mmT, rotateStress, toMatrix_mm, toMatrix_mmT, toMatrix_zero]
    simp
  have hS : ∀ p < nbs.length, (r.integral p).toMatrix = 0 := by
    intro p hlt
    rw [((integral_points _ hp.integral p).1 (List.mem_range.mpr hlt)).1]
    apply List.sum_eq_zero
    intro m hm
    obtain ⟨b, hb, rfl⟩ := List.mem_map.1 hm
    unfold share
    rw [hpi b (List.mem_filter.mp hb).1]
    simp
  obtain ⟨gs, h1, h2, h3⟩ := scatter_scattered hp.force
  rw [h3 k, Pi.zero_apply, zero_add]
  apply List.sum_eq_zero
  intro f hf
  obtain ⟨x, hx, rfl⟩ := List.mem_map.1 hf
  have hb : x.1 ∈ bondsOf nbs := h1 ▸ List.mem_map_of_mem hx
  have hlt : x.1.i < nbs.length := by
    obtain ⟨ns, h1, _⟩ := mem_bondsOf hb
    exact (List.getElem?_eq_some_iff.1 h1).1
  have hz : x.2 = 0 := by
    rw [(forceBond_ok (h2 x hx)).1, pairForce, hpi _ hb, hS _ hlt]
    simp
  simp [pull, hz]

/-- **C142** The left stretches and the Cauchy stresses are carried along: with the angular velocity `o` a bond that is intact
has the rate of its left stretch `S V - V S`, and its Cauchy stress is multiplied from both sides by the matrix with which the code
rotates. -/
theorem C142_carried {B : Body} {D : Decompose} (hD : D.Correct) {order : Nat} {bulk shear : ℝ} {ghost : Nat → ℝ}
    {nbs : List (List Nat)} (hN : Within nbs nbs.length) {d : Nat → ℝ} {s : State}
    (hrun : Run B D order (elasticUpdate bulk shear) ghost nbs (Reported nbs) d s) {dt : ℝ} {H : Harm} (hr : Reported nbs d H)
    {u y v : Nat → V3} {g : Ghosts} {r : Result}
    (h : evaluation B D order (elasticUpdate bulk shear) dt H u y v g s nbs.length (encode nbs) = .ok r)
    (hh : ∀ p < nbs.length, 0 < B.horizon p) (hw : ∀ p < nbs.length, WellPlaced B order H.bondDamage nbs p)
    {F : Matrix (Fin 3) (Fin 3) ℝ} {f c o : V3} (hu : ∀ k, u k = y k - B.x k) (hy : ∀ k, y k = F *ᵥ B.x k + f)
    (hv : ∀ k, v k = axial o *ᵥ y k + c) {b : Bond} (hb : b ∈ bondsOf nbs) (ho : 0 < r.pre.weights.omega b.b) :
    (r.kin.stretch b.b).toMatrix = (s.stretch b.b).toMatrix +
      dt • (axial o * (s.stretch b.b).toMatrix - (s.stretch b.b).toMatrix * axial o) ∧
    (r.kin.rotation b.b).toMatrix = (qMatrix dt o).toMatrix * (s.rotation b.b).toMatrix ∧
    (r.cauchy b.b).toMatrix = (qMatrix dt o).toMatrix * ((s.rotation b.b).toMatrix * (s.stress b.b).toMatrix *
      (s.rotation b.b).toMatrixᵀ) * (qMatrix dt o).toMatrixᵀ := by
  have hp := (force_parts (evaluation_parts h).2).2
  obtain ⟨ha, -⟩ := kin_fold (bondsOf_nodup nbs) hp.kin
  obtain ⟨-, hi, -, -, e1, e2, -⟩ := (ha b hb).1.active ho
  obtain ⟨g1, g2⟩ := C141_affine hD hN hrun hr h hh hw (F := F) (A := axial o * F) (f := f) (a := axial o *ᵥ f + c) hu hy
    (fun k => by rw [hv, hy, mulVec_add, mulVec_mulVec, add_assoc]) hb
  have hinv := product_invert3 ((invert3_code _).mp hi)
  rw [g1] at hinv
  have hL : (matrixMultiply false false 1 (bondGradient B r.pre.gradDot v b) (invert3 (bondGradient B r.pre.grad y b)).2).toMatrix =
      axial o := by rw [toMatrix_mm, g2, Matrix.mul_assoc, hinv, Matrix.mul_one]
  generalize matrixMultiply false false 1 (bondGradient B r.pre.gradDot v b) (invert3 (bondGradient B r.pre.grad y b)).2 = L at hL e1 e2
  have hR : (r.kin.rotation b.b).toMatrix = (qMatrix dt o).toMatrix * (s.rotation b.b).toMatrix := by
    rw [e2, newRotation_eq, spin_axial hL]
  refine ⟨?_, hR, ?_⟩
  · rw [e1, newStretch, toMatrix_addScaled, toMatrix_sub9, toMatrix_mm, toMatrix_mm, hL, spin_axial hL, omegaTensor_eq]
  · rw [hp.cauchy, rotateStress, toMatrix_mm, toMatrix_mmT, hR,
      C142_rigid hD hN hrun hr h hh hw hu hy (axial_transpose o) hv, transpose_mul, one_smul]
    simp only [Matrix.mul_assoc]

example : ∃ (D : Decompose) (s : State) (r : Result), D.Correct ∧
    Run tetra D 1 (elasticUpdate 3 1) (fun _ => 0) tetraNbs (Reported tetraNbs) (fun _ => 0) s ∧
    evaluation tetra D 1 (elasticUpdate 3 1) 1 intact u0 y0 v0 g0 s tetraNbs.length (encode tetraNbs) = .ok r ∧
    (∀ p < tetraNbs.length, WellPlaced tetra 1 intact.bondDamage tetraNbs p) ∧ (∀ k, v0 k = axial ![0, 0, 1] *ᵥ y0 k + 0) ∧
    ∀ b ∈ bondsOf tetraNbs, 0 < r.pre.weights.omega b.b := by
  obtain ⟨D, hD, s, hs, h0, r, hr⟩ := tetra_case
  have hrun := hs.mono fun _ _ a => a.reported
  have e : spin0 = axial ![0, 0, 1] := by
    ext i j
    fin_cases i <;> fin_cases j <;> simp [spin0, axial]
  refine ⟨D, s, r, hD, hrun, hr, fun p hp => tetra_placed (fun _ => rfl) hp, fun k => by rw [← e]; rfl, fun b hb => ?_⟩
  rw [(sound_omega (sound_step intact_tame.reported (sound_run hrun) hr) hb).1]
  simp [influenceOf, tetra, intact]

theorem skew_axial {W : Matrix (Fin 3) (Fin 3) ℝ} (h : Wᵀ = -W) : ∃ o, W = axial o := by
  refine ⟨![W 2 1, W 0 2, W 1 0], ?_⟩
  have e : ∀ i j, W j i = -W i j := fun i j => congrFun (congrFun h i) j
  ext i j
  fin_cases i <;> fin_cases j <;> simp [axial] <;> linarith [e 0 0, e 1 1, e 2 2, e 0 1, e 0 2, e 1 2]

theorem RigidRun.run {B : Body} {D : Decompose} {order : Nat} {bulk shear : ℝ} {ghost : Nat → ℝ} {nbs : List (List Nat)}
    {d : Nat → ℝ} {s : State} (h : RigidRun B D order bulk shear ghost nbs d s) :
    Run B D order (elasticUpdate bulk shear) ghost nbs (Reported nbs) d s := by
  induction h with
  | start h => exact .start h
  | step _ hr _ _ _ _ _ h ih => exact .step ih hr h

/-- **C142** Hence an elastic body that starts without stress and moves rigidly stays without stress, and the left stretches of its
bonds stay identities. -/
theorem C142_steady {B : Body} {D : Decompose} (hD : D.Correct) {order : Nat} {bulk shear : ℝ} {ghost : Nat → ℝ}
    {nbs : List (List Nat)} (hN : Within nbs nbs.length) (hh : ∀ p < nbs.length, 0 < B.horizon p) {d : Nat → ℝ} {s : State}
    (h : RigidRun B D order bulk shear ghost nbs d s) {b : Bond} (hb : b ∈ bondsOf nbs) :
    s.stress b.b = zero ∧ (s.stretch b.b).toMatrix = 1 := by
  induction h with
  | start h =>
    unfold initialState at h
    rw [visited_encode, Outcome.ok_bind] at h
    obtain ⟨w, h1, h2⟩ := Outcome.bind_eq_ok.mp h
    split at h2
    · cases h2
    · cases h2
      exact ⟨rfl, toMatrix_identity⟩
  | step hrun hr hw hu hy hW hv h ih =>
    rename_i r F W f c
    refine ⟨(C142_rigid hD hN hrun.run hr h hh hw hu hy hW hv b.b).trans ih.1, ?_⟩
    show (r.kin.stretch b.b).toMatrix = 1
    by_cases ho : 0 < r.pre.weights.omega b.b
    · obtain ⟨o, ho'⟩ := skew_axial hW
      subst ho'
      rw [(C142_carried hD hN hrun.run hr h hh hw hu hy hv hb ho).1, ih.2, Matrix.mul_one, Matrix.one_mul, sub_self, smul_zero, add_zero]
    · have hp := (force_parts (evaluation_parts h).2).2
      rw [((kin_fold (bondsOf_nodup nbs) hp.kin).1 b hb).1.idle ho |>.1]
      exact ih.2

/-- **C142** and free of force. -/
theorem C142_unloaded {B : Body} {D : Decompose} (hD : D.Correct) {order : Nat} {bulk shear : ℝ} {ghost : Nat → ℝ}
    {nbs : List (List Nat)} (hN : Within nbs nbs.length) (hh : ∀ p < nbs.length, 0 < B.horizon p) {d : Nat → ℝ} {s : State}
    (hrun : RigidRun B D order bulk shear ghost nbs d s) {dt : ℝ} {H : Harm} (hr : Reported nbs d H)
    {u y v : Nat → V3} {g : Ghosts} {r : Result}
    (h : evaluation B D order (elasticUpdate bulk shear) dt H u y v g s nbs.length (encode nbs) = .ok r)
    (hw : ∀ p < nbs.length, WellPlaced B order H.bondDamage nbs p)
    {F W : Matrix (Fin 3) (Fin 3) ℝ} {f c : V3} (hu : ∀ k, u k = y k - B.x k) (hy : ∀ k, y k = F *ᵥ B.x k + f)
    (hW : Wᵀ = -W) (hv : ∀ k, v k = W *ᵥ y k + c) (k : Nat) : r.force k = 0 :=
  C142_still h (fun _ hb => (C142_steady hD hN hh (.step hrun hr hw hu hy hW hv h) hb).1) k

example : ∃ (D : Decompose) (s : State) (r : Result), D.Correct ∧
    RigidRun tetra D 1 3 1 (fun _ => 0) tetraNbs intact.bondDamage s ∧
    evaluation tetra D 1 (elasticUpdate 3 1) 1 intact u0 y0 v0 g0 s tetraNbs.length (encode tetraNbs) = .ok r ∧
    (∀ b ∈ bondsOf tetraNbs, r.stress b.b = zero) := by
  obtain ⟨D, hD⟩ := correct_exists
  obtain ⟨s, h, hs⟩ := tetra_start D (elasticUpdate 3 1) (Tame tetraNbs)
  have mv : ∀ {s}, Run tetra D 1 (elasticUpdate 3 1) (fun _ => 0) tetraNbs (Tame tetraNbs) (fun _ => 0) s → ∃ r,
      evaluation tetra D 1 (elasticUpdate 3 1) 1 intact u0 y0 v0 g0 s tetraNbs.length (encode tetraNbs) = .ok r := fun hs =>
    tetra_moves hD hs 1 g0 (u := u0) (y := y0) (v := v0) (F := shear0) (A := spin0 * shear0) (f := 0) (a := spin0 *ᵥ 0 + 0)
      (by simp [shear0, det_fin_three]) (fun _ => rfl) (fun _ => rfl)
      fun k => by rw [v0, y0, mulVec_add, mulVec_mulVec, add_assoc]
  obtain ⟨r, hr⟩ := mv hs
  have h1 : RigidRun tetra D 1 3 1 (fun _ => 0) tetraNbs intact.bondDamage (r.next s) :=
    .step (.start h) intact_tame.reported (fun p hp => tetra_placed (fun _ => rfl) hp) (F := shear0) (f := 0) (c := 0)
      (fun _ => rfl) (fun _ => rfl) spin0_skew (fun _ => rfl) hr
  obtain ⟨r', hr'⟩ := mv (.step hs intact_tame hr)
  refine ⟨D, r.next s, r', hD, h1, hr', fun b hb => ?_⟩
  exact (C142_steady hD tetra_within tetra_horizon (.step h1 intact_tame.reported (fun p hp => tetra_placed (fun _ => rfl) hp)
    (F := shear0) (f := 0) (c := 0) (fun _ => rfl) (fun _ => rfl) spin0_skew (fun _ => rfl) hr') hb).1

end Verif.Assoc
