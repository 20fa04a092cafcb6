import Verif.Assoc.Cases
import Verif.Correspondence.RotLemmas

/-!
# Bond-associated correspondence material: balance of momentum and power

C139: forces add up to zero; when they are defined; broken bonds.
C140: power of the forces; moments.
-/

noncomputable section

namespace Verif.Assoc

open Verif Verif.Neigh Verif.Mech Verif.Tensor Matrix
open Verif.Correspondence (bondsAt addOuter identity newStretch newRotation unrotated rotateStress mem_bondsAt
  foldl_addOuter toMatrix_mm toMatrix_mmT toMatrix_identity twist twist_outer twist_symm sum_map_linear unrotated_eq
  elasticPoint elasticStress_eq)
open scoped Classical

/-! ### C139 -/

/-- **C139** The forces add up to zero, whatever the stresses, the damage and the values received for ghost points. -/
theorem C139_force {B : Body} {D : Decompose} {order : Nat} {U : Update} {dt : ℝ} {H : Harm} {u y v : Nat → V3}
    {g : Ghosts} {s : State} {nbs : List (List Nat)} {r : Result}
    (h : evaluation B D order U dt H u y v g s nbs.length (encode nbs) = .ok r) {N : Nat} (hN : Within nbs N) :
    totalForce B.volume r.force N = 0 := by
  have hp := (force_parts (evaluation_parts h).2).2
  have e := sum_scattered N (fun k => B.volume k • LinearMap.id) (scatter_scattered hp.force) (bonds_within hN) (by
    intro b _ f _
    simp only [LinearMap.smul_apply, LinearMap.id_apply]
    module)
  simpa [totalForce] using e

example : ∃ (D : Decompose) (s : State) (r : Result), D.Correct ∧
    evaluation tetra D 1 (elasticUpdate 3 1) 1 intact u0 y0 v0 g0 s tetraNbs.length (encode tetraNbs) = .ok r ∧
    Within tetraNbs 4 := by
  obtain ⟨D, hD, s, -, -, r, hr⟩ := tetra_case
  exact ⟨D, s, r, hD, hr, tetra_within⟩

/-- **C139** In a run in which damage is reported, a point all of whose bonds are broken, from it and to it, has no
force. -/
theorem C139_broken {B : Body} {D : Decompose} {order : Nat} {U : Update} {ghost : Nat → ℝ}
    {nbs : List (List Nat)} {d : Nat → ℝ} {s : State} (hrun : Run B D order U ghost nbs (Reported nbs) d s)
    {dt : ℝ} {H : Harm} (hr : Reported nbs d H) {u y v : Nat → V3} {g : Ghosts} {r : Result}
    (h : evaluation B D order U dt H u y v g s nbs.length (encode nbs) = .ok r) {k : Nat}
    (hk : ∀ p ns t j, nbs[p]? = some ns → ns[t]? = some j → p = k ∨ j = k → H.bondDamage (bondPos nbs p t) = 1) :
    r.force k = 0 := by
  have hp := (force_parts (evaluation_parts h).2).2
  have hs := sound_step hr (sound_run hrun) h
  obtain ⟨gs, h1, h2, h3⟩ := scatter_scattered hp.force
  rw [h3 k, Pi.zero_apply, zero_add]
  apply List.sum_eq_zero
  intro f hf
  obtain ⟨x, hx, rfl⟩ := List.mem_map.1 hf
  have hb : x.1 ∈ bondsOf nbs := h1 ▸ List.mem_map_of_mem hx
  by_cases hbk : x.1.i = k ∨ x.1.j = k
  · obtain ⟨t, ⟨ns, a1, a2⟩, a3⟩ := bondsOf_pos hb
    have hone := hk _ _ _ _ a1 a2 hbk
    have ho : r.pre.weights.omega x.1.b = 0 := by
      rw [(sound_omega hs hb).1, influenceOf, a3, hone, sub_self, mul_zero]
    have hz : x.2 = 0 := by
      rw [(forceBond_ok (h2 x hx)).1, pairForce, if_neg (by rw [ho]; exact lt_irrefl _)]
    simp [pull, hz]
  · push Not at hbk
    rw [pull, if_neg hbk.1, if_neg hbk.2, sub_zero]

example : ∃ (D : Decompose) (s : State) (r : Result), D.Correct ∧
    Run tetra D 1 (elasticUpdate 3 1) (fun _ => 0) tetraNbs (Reported tetraNbs) (fun _ => 0) s ∧ Reported tetraNbs (fun _ => 0) lone ∧
    evaluation tetra D 1 (elasticUpdate 3 1) 1 lone (fun _ => 0) tetra.x v0 g0 s tetraNbs.length (encode tetraNbs) = .ok r ∧
    ∀ p ns t j, tetraNbs[p]? = some ns → ns[t]? = some j → p = 3 ∨ j = 3 → lone.bondDamage (bondPos tetraNbs p t) = 1 := by
  obtain ⟨D, hD, s, hs, -⟩ := tetra_case
  have hrun := hs.mono fun _ _ a => a.reported
  obtain ⟨r, hr⟩ := tetra_breaks (elastic_total 3 1) hrun 1 lone v0 g0
  exact ⟨D, s, r, hD, hrun, lone_reported _, hr, fun _ _ _ _ => lone_broken⟩

/-- **C139** An evaluation is defined if the order of accuracy and the horizons are not zero, the deformation gradients at
points and at intact bonds are invertible, intact bonds have a length and weighted volumes at both ends, and the
stress update is. -/
theorem C139_defined {B : Body} {D : Decompose} {order : Nat} (ho : order ≠ 0) {U : Update} (hU : ∀ dt A s, ∃ s', U dt A s = .ok s')
    (dt : ℝ) (H : Harm) (u y v : Nat → V3) (g : Ghosts) (s : State) {nbs : List (List Nat)}
    (hh : ∀ p < nbs.length, B.horizon p ≠ 0) :
    ∃ P, precompute B D order H u v nbs.length (bondsOf nbs) s.weights g = .ok P ∧
      ((∀ p < nbs.length, (P.grad p).toMatrix.det ≠ 0) →
       (∀ b ∈ bondsOf nbs, 0 < P.weights.omega b.b → B.x b.i ≠ B.x b.j ∧ s.w0 b.i ≠ 0 ∧ s.w0 b.j ≠ 0 ∧
          (bondGradient B P.grad y b).toMatrix.det ≠ 0) →
       ∃ r, evaluation B D order U dt H u y v g s nbs.length (encode nbs) = .ok r) :=
  evaluation_defined ho hU dt H u y v g s hh

example : ∃ (D : Decompose) (s : State) (P : Pre), D.Correct ∧
    precompute tetra D 1 intact u0 v0 tetraNbs.length (bondsOf tetraNbs) s.weights g0 = .ok P ∧
    (∀ p < tetraNbs.length, (P.grad p).toMatrix.det ≠ 0) ∧
    ∀ b ∈ bondsOf tetraNbs, 0 < P.weights.omega b.b → tetra.x b.i ≠ tetra.x b.j ∧ s.w0 b.i ≠ 0 ∧ s.w0 b.j ≠ 0 ∧
      (bondGradient tetra P.grad y0 b).toMatrix.det ≠ 0 := by
  obtain ⟨D, hD, s, hs, -, r, hr⟩ := tetra_case
  have hP := (evaluation_parts hr).1
  obtain ⟨h1, h2⟩ := affine_pre hD tetra_within (sound_run (hs.mono fun _ _ a => a.reported)) intact_tame.reported hP tetra_horizon
    (fun _ hp => tetra_placed (fun _ => rfl) hp) (F := shear0) (A := spin0 * shear0) (f := 0) (a := spin0 *ᵥ 0 + 0)
    (fun _ => rfl) (fun _ => rfl) fun k => by rw [v0, y0, mulVec_add, mulVec_mulVec, add_assoc]
  have hF : shear0.det ≠ 0 := by simp [shear0, det_fin_three]
  refine ⟨D, s, r.pre, hD, hP, fun p hp => by rw [(h1 p hp).1]; exact hF, fun b hb _ => ?_⟩
  obtain ⟨hi, hj⟩ := bonds_within tetra_within b hb
  exact ⟨tetra_distinct b hb, tetra_volume hs _ hi, tetra_volume hs _ hj, by rw [(h2 b hb).1]; exact hF⟩

theorem elastic_local (nbs : List (List Nat)) (bulk shear : ℝ) : Local nbs (elasticUpdate bulk shear) := by
  intro dt A s s' h k _ k' _ h1 h2
  cases h
  simp only [h1, h2]

/-! ### C140 -/

/-- **C140** The power of the forces is minus the power of the first Piola-Kirchhoff stresses of the bonds over the rates
of their deformation gradients. -/
theorem C140_power {B : Body} {D : Decompose} {order : Nat} {U : Update} {nbs : List (List Nat)} (hU : Local nbs U) {ghost : Nat → ℝ}
    (hB : Whole B nbs) {d : Nat → ℝ} {s : State} (hrun : Run B D order U ghost nbs (Tame nbs) d s)
    {dt : ℝ} {H : Harm} (hH : Tame nbs d H) {u y v : Nat → V3} {g : Ghosts} {r : Result}
    (h : evaluation B D order U dt H u y v g s nbs.length (encode nbs) = .ok r) :
    ∑ k ∈ Finset.range nbs.length, B.volume k * (v k ⬝ᵥ r.force k) =
      - ((bondsOf nbs).map fun b => bondMeasure B s.w0 r.pre.weights.omega b *
        trace ((bondGradient B r.pre.gradDot v b).toMatrix * (r.piola b.b).toMatrixᵀ)).sum := by
  have hw := congrArg (traceLinearMap (Fin 3) ℝ ℝ) (work_run hU hB hrun hH h v)
  rw [map_sum, map_neg, sum_map_linear] at hw
  have e1 : ∀ k, traceLinearMap (Fin 3) ℝ ℝ (B.volume k • vecMulVec (v k) (r.force k)) = B.volume k * (v k ⬝ᵥ r.force k) := by
    intro k
    rw [map_smul, traceLinearMap_apply, trace_vecMulVec, smul_eq_mul]
  simp only [e1] at hw
  rw [hw]
  congr 2
  refine List.map_congr_left fun b hb => ?_
  rw [map_smul, traceLinearMap_apply, smul_eq_mul, bondGradient_bondOf]
  obtain ⟨hi, hj⟩ := bonds_within hB.within b hb
  have hd : ∀ p < nbs.length, gradOf B r.pre.weights.phi v (bondsOf nbs) p = (r.pre.gradDot p).toMatrix := by
    intro p hp
    rw [(precompute_parts (evaluation_parts h).1).2.2 p, if_pos hp, gradientAt_gradOf, toMatrix_zero, zero_add]
  rw [bondOf_congr B (G' := fun p => (r.pre.gradDot p).toMatrix) v (hd b.i hi) (hd b.j hj)]

example : Local tetraNbs (elasticUpdate 3 1) ∧ Whole tetra tetraNbs ∧ Tame tetraNbs (fun _ => 0) intact ∧ ∃ (D : Decompose) (s : State) (r : Result),
    Run tetra D 1 (elasticUpdate 3 1) (fun _ => 0) tetraNbs (Tame tetraNbs) (fun _ => 0) s ∧
    evaluation tetra D 1 (elasticUpdate 3 1) 1 intact u0 y0 v0 g0 s tetraNbs.length (encode tetraNbs) = .ok r := by
  obtain ⟨D, _, s, hs, -, r, hr⟩ := tetra_case
  exact ⟨elastic_local tetraNbs 3 1, tetra_whole, intact_tame, D, s, r, hs, hr⟩

/-- For an intact bond deformation gradient and first Piola-Kirchhoff stress give the Cauchy stress. -/
theorem piola_cauchy {B : Body} {U : Update} {dt : ℝ} {y v : Nat → V3} {s : State} {nbs : List (List Nat)} {r : Result}
    (hp : Parts B U dt y v s nbs.length (bondsOf nbs) r) {b : Bond} (hb : b ∈ bondsOf nbs)
    (ho : 0 < r.pre.weights.omega b.b) :
    (bondGradient B r.pre.grad y b).toMatrix * (r.piola b.b).toMatrixᵀ =
      (bondGradient B r.pre.grad y b).toMatrix.det • (r.cauchy b.b).toMatrixᵀ := by
  obtain ⟨-, hi, e1, e2, -⟩ := ((kin_fold (bondsOf_nodup nbs) hp.kin).1 b hb).1.active ho
  have hd : determinant (bondGradient B r.pre.grad y b) ≠ 0 := (invert3_code _).mp hi
  rw [hp.piola, piolaBond, toMatrix_mmT, e1, e2, transpose_smul, transpose_mul, transpose_transpose, Matrix.mul_smul,
    ← Matrix.mul_assoc, product_invert3 hd, Matrix.one_mul, determinant_eq]

/-- **C140** If the Cauchy stresses are symmetric and the neighbors of all points determine linear fields, the moments of
the forces about the present positions add up to zero. -/
theorem C140_moment {B : Body} {D : Decompose} (hD : D.Correct) {order : Nat} {U : Update} {nbs : List (List Nat)} (hU : Local nbs U) {ghost : Nat → ℝ}
    (hB : Whole B nbs) {d : Nat → ℝ} {s : State} (hrun : Run B D order U ghost nbs (Tame nbs) d s)
    {dt : ℝ} {H : Harm} (hH : Tame nbs d H) {u y v : Nat → V3} (hy : ∀ k, y k = B.x k + u k) {g : Ghosts} {r : Result}
    (h : evaluation B D order U dt H u y v g s nbs.length (encode nbs) = .ok r)
    (hh : ∀ p < nbs.length, 0 < B.horizon p) (hw : ∀ p < nbs.length, WellPlaced B order H.bondDamage nbs p)
    (hs : ∀ k, (r.stress k).toMatrixᵀ = (r.stress k).toMatrix) :
    totalMoment y B.volume r.force nbs.length = 0 := by
  have hwk := congrArg twist (work_run hU hB hrun hH h y)
  rw [map_sum, map_neg, sum_map_linear] at hwk
  have e1 : ∀ k, twist (B.volume k • vecMulVec (y k) (r.force k)) = B.volume k • crossProduct (y k) (r.force k) := by
    intro k
    rw [map_smul, twist_outer]
  simp only [e1] at hwk
  rw [totalMoment, hwk, neg_eq_zero]
  apply List.sum_eq_zero
  intro m hm
  obtain ⟨b, hb, rfl⟩ := List.mem_map.1 hm
  obtain ⟨hsd, hps⟩ := paired_run hU hB.horizon hrun
  have hs' := sound_step hH.reported hsd h
  have hord := (gradientWeights_fold (precompute_parts (evaluation_parts h).1).1).1
  by_cases ho : 0 < r.pre.weights.omega b.b
  · obtain ⟨hi, hj⟩ := bonds_within hB.within b hb
    have hg : ∀ p < nbs.length, gradOf B r.pre.weights.phi y (bondsOf nbs) p = (r.pre.grad p).toMatrix := by
      intro p hp
      rw [(precompute_parts (evaluation_parts h).1).2.1 p, if_pos hp, gradientAt_gradOf, toMatrix_identity,
        ← gradOf_coordinates hD hord hp (hs' p hp).2 (hh p hp) (hw p hp), ← gradOf_add]
      congr 1
      funext k
      rw [hy k, Pi.add_apply]
    rw [bondOf_congr B (G' := fun p => (r.pre.grad p).toMatrix) y (hg b.i hi) (hg b.j hj), ← bondGradient_bondOf,
      piola_cauchy (force_parts (evaluation_parts h).2).2 hb ho, map_smul, map_smul, twist_symm, smul_zero, smul_zero]
    rw [(force_parts (evaluation_parts h).2).2.cauchy, rotateStress, toMatrix_mm, toMatrix_mmT, one_smul]
    simp only [transpose_mul, transpose_transpose, hs b.b, Matrix.mul_assoc]
  · have h0 : r.pre.weights.omega b.b = 0 :=
      le_antisymm (not_lt.mp ho) (sound_nonneg hs' hB.influence hH.le_one hb)
    rw [bondMeasure, h0]
    simp

theorem rate_symm {B : Body} {U : Update} {dt : ℝ} {y v : Nat → V3} {s : State} {nbs : List (List Nat)} {r : Result}
    (hp : Parts B U dt y v s nbs.length (bondsOf nbs) r) (k : Nat) :
    (r.kin.rate k).toMatrixᵀ = (r.kin.rate k).toMatrix := by
  obtain ⟨ha, hb⟩ := kin_fold (bondsOf_nodup nbs) hp.kin
  by_cases hk : k ∈ (bondsOf nbs).map (·.b)
  · obtain ⟨b, hbm, rfl⟩ := List.mem_map.1 hk
    by_cases ho : 0 < r.pre.weights.omega b.b
    · obtain ⟨-, -, -, -, -, -, e⟩ := (ha b hbm).1.active ho
      rw [e, unrotated_eq]
      simp only [transpose_mul, transpose_transpose, transpose_smul, transpose_add, Matrix.mul_assoc]
      rw [add_comm]
    · rw [((ha b hbm).1.idle ho).2.2, toMatrix_zero, transpose_zero]
  · rw [(hb k hk).2.2.2.2, toMatrix_zero, transpose_zero]

/-- **C140** The stresses of the elastic material are symmetric throughout a run. -/
theorem C140_elastic_symmetric {B : Body} {D : Decompose} {order : Nat} {bulk shear : ℝ} {ghost : Nat → ℝ}
    {nbs : List (List Nat)} {A : (Nat → ℝ) → Harm → Prop} {d : Nat → ℝ} {s : State}
    (hrun : Run B D order (elasticUpdate bulk shear) ghost nbs A d s) {dt : ℝ} {H : Harm} {u y v : Nat → V3} {g : Ghosts}
    {r : Result} (h : evaluation B D order (elasticUpdate bulk shear) dt H u y v g s nbs.length (encode nbs) = .ok r) (k : Nat) :
    (r.stress k).toMatrixᵀ = (r.stress k).toMatrix := by
  have step : ∀ {s : State} {dt : ℝ} {H : Harm} {u y v : Nat → V3} {g : Ghosts} {r : Result},
      evaluation B D order (elasticUpdate bulk shear) dt H u y v g s nbs.length (encode nbs) = .ok r →
      (∀ k, (s.stress k).toMatrixᵀ = (s.stress k).toMatrix) → ∀ k, (r.stress k).toMatrixᵀ = (r.stress k).toMatrix := by
    intro s dt H u y v g r h hs k
    have hp := (force_parts (evaluation_parts h).2).2
    have e := hp.stress
    have e' : r.stress k = elasticPoint bulk shear dt none (r.kin.rate k) (s.stress k) := by
      have : r.stress = fun b => elasticPoint bulk shear dt none (r.kin.rate b) (s.stress b) := by
        unfold elasticUpdate at e
        injection e with e
        exact e.symm
      rw [this]
    rw [e', elastic_eq]
    have hr := rate_symm hp k
    simp only [transpose_add, transpose_smul, transpose_one, hs k, Verif.Correspondence.dev, transpose_sub, hr]
  have hall : ∀ k, (s.stress k).toMatrixᵀ = (s.stress k).toMatrix := by
    clear h
    induction hrun with
    | start h =>
      unfold initialState at h
      rw [visited_encode, Outcome.ok_bind] at h
      obtain ⟨w, h1, h2⟩ := Outcome.bind_eq_ok.mp h
      split at h2
      · cases h2
      · cases h2
        intro k
        simp only [toMatrix_zero, transpose_zero]
    | step _ _ h ih => exact step h ih
    | again _ _ h ih => exact ih
  exact step h hall k

example : ∃ (D : Decompose) (s : State) (r : Result), D.Correct ∧
    Run tetra D 1 (elasticUpdate 3 1) (fun _ => 0) tetraNbs (Tame tetraNbs) (fun _ => 0) s ∧
    (∀ k, tetra.x k + u0 k = y0 k) ∧
    evaluation tetra D 1 (elasticUpdate 3 1) 1 intact u0 y0 v0 g0 s tetraNbs.length (encode tetraNbs) = .ok r ∧
    (∀ p < tetraNbs.length, WellPlaced tetra 1 intact.bondDamage tetraNbs p) ∧
    ∀ k, (r.stress k).toMatrixᵀ = (r.stress k).toMatrix := by
  obtain ⟨D, hD, s, hs, -, r, hr⟩ := tetra_case
  exact ⟨D, s, r, hD, hs, fun k => by rw [u0, add_sub_cancel], hr, fun p hp => tetra_placed (fun _ => rfl) hp, C140_elastic_symmetric hs hr⟩

end Verif.Assoc
