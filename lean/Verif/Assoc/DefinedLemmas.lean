import Verif.Assoc.PairLemmas
import Verif.Correspondence.RotLemmas

/-!
# Bond-associated correspondence material: definedness, affine fields
-/

noncomputable section

namespace Verif.Assoc

open Verif Verif.Neigh Verif.Mech Verif.Tensor Matrix
open Verif.Correspondence (bondsAt addOuter identity newStretch newRotation unrotated rotateStress mem_bondsAt
  foldl_addOuter toMatrix_mm toMatrix_mmT toMatrix_identity twist twist_outer twist_symm sum_map_linear unrotated_eq
  elasticPoint elasticStress_eq)
open scoped Classical

theorem lenSq_eq (d : V3) : lenSq d = d ⬝ᵥ d := by
  simp [lenSq, dotProduct, Fin.sum_univ_three]

theorem weights_defined {B : Body} {D : Decompose} {order : Nat} (d : Nat → ℝ) (bonds : List Bond) (ps : List Nat)
    (hh : ∀ p ∈ ps, B.horizon p ≠ 0) (w : Weights) :
    ∃ w', ps.foldlM (weightsPoint B D order d bonds) w = .ok w' ∧ w'.code = w.code := by
  induction ps generalizing w with
  | nil => exact ⟨w, rfl, rfl⟩
  | cons q ps ih =>
    have hq := hh q List.mem_cons_self
    have ih' := ih fun p hp => hh p (List.mem_cons_of_mem _ hp)
    by_cases hf : w.flag q < 1 / 2
    · obtain ⟨w', h1, h2⟩ := ih' (evaluate B D order d (bondsAt bonds q) w q)
      refine ⟨w', ?_, by rw [h2, evaluate_code]⟩
      rw [List.foldlM_cons, weightsPoint, if_pos hf, if_neg hq]
      exact h1
    · obtain ⟨w', h1, h2⟩ := ih' w
      refine ⟨w', ?_, h2⟩
      rw [List.foldlM_cons, weightsPoint, if_neg hf]
      exact h1

theorem precompute_defined {B : Body} {D : Decompose} {order : Nat} (ho : order ≠ 0) (H : Harm) (u v : Nat → V3) {n : Nat}
    {bonds : List Bond} (w : Weights) (g : Ghosts) (hh : ∀ p < n, B.horizon p ≠ 0) :
    ∃ P, precompute B D order H u v n bonds w g = .ok P := by
  obtain ⟨w', h1, h2⟩ := weights_defined (D := D) (order := order) H.bondDamage bonds (List.range n)
    (fun p hp => hh p (List.mem_range.mp hp)) { w with flag := updateFlag H.damageN H.damageNP1 n w.flag, code := 0 }
  unfold precompute gradientWeights
  rw [if_neg ho, h1, Outcome.ok_bind, if_neg (by rw [h2]; simp)]
  exact ⟨_, rfl⟩

/-- An evaluation is defined if the order of accuracy and the horizons are not zero, the deformation gradients at
points and at intact bonds are invertible, intact bonds have a length and weighted volumes at both ends, and the
stress update is. -/
theorem evaluation_defined {B : Body} {D : Decompose} {order : Nat} (ho : order ≠ 0) {U : Update} (hU : ∀ dt A s, ∃ s', U dt A s = .ok s')
    (dt : ℝ) (H : Harm) (u y v : Nat → V3) (g : Ghosts) (s : State) {nbs : List (List Nat)}
    (hh : ∀ p < nbs.length, B.horizon p ≠ 0) :
    ∃ P, precompute B D order H u v nbs.length (bondsOf nbs) s.weights g = .ok P ∧
      ((∀ p < nbs.length, (P.grad p).toMatrix.det ≠ 0) →
       (∀ b ∈ bondsOf nbs, 0 < P.weights.omega b.b → B.x b.i ≠ B.x b.j ∧ s.w0 b.i ≠ 0 ∧ s.w0 b.j ≠ 0 ∧
          (bondGradient B P.grad y b).toMatrix.det ≠ 0) →
       ∃ r, evaluation B D order U dt H u y v g s nbs.length (encode nbs) = .ok r) := by
  obtain ⟨P, hP⟩ := precompute_defined (D := D) ho H u v (bonds := bondsOf nbs) s.weights g hh
  refine ⟨P, hP, fun hd hb => ?_⟩
  have hb' : ∀ b ∈ bondsOf nbs, 0 < P.weights.omega b.b → lenSq (xi B b) ≠ 0 := by
    intro b hbm hom
    rw [lenSq_eq]
    intro h0
    exact (hb b hbm hom).1 (sub_eq_zero.mp (dotProduct_self_eq_zero.mp h0)).symm
  have hkin : ∀ (bs : List Bond) (k : Kin), (∀ b ∈ bs, b ∈ bondsOf nbs) →
      ∃ k', bs.foldlM (kinBond B dt P y v s.stretch s.rotation) k = .ok k' := by
    intro bs
    induction bs with
    | nil => intro k _; exact ⟨k, rfl⟩
    | cons b bs ih =>
      intro k hbs
      have hbm := hbs b List.mem_cons_self
      have : ∃ k1, kinBond B dt P y v s.stretch s.rotation k b = .ok k1 := by
        unfold kinBond
        split
        · next hom =>
          rw [if_neg (hb' b hbm hom)]
          simp only
          rw [if_neg]
          · exact ⟨_, rfl⟩
          · rw [not_not, invert3_code, determinant_eq]
            exact (hb b hbm hom).2.2.2
        · exact ⟨_, rfl⟩
      obtain ⟨k1, h1⟩ := this
      rw [List.foldlM_cons, h1]
      exact ih k1 fun c hc => hbs c (List.mem_cons_of_mem _ hc)
  have hint : ∀ (piola : Nat → M9) (bs : List Bond) (t : M9), (∀ b ∈ bs, b ∈ bondsOf nbs) →
      ∃ t', bs.foldlM (integralBond B s.w0 P.weights.omega piola) t = .ok t' := by
    intro piola bs
    induction bs with
    | nil => intro t _; exact ⟨t, rfl⟩
    | cons b bs ih =>
      intro t hbs
      have hbm := hbs b List.mem_cons_self
      have : ∃ t1, integralBond B s.w0 P.weights.omega piola t b = .ok t1 := by
        unfold integralBond
        split
        · next hom =>
          rw [if_neg]
          · exact ⟨_, rfl⟩
          · push Not
            exact ⟨(hb b hbm hom).2.1, (hb b hbm hom).2.2.1, hb' b hbm hom⟩
        · exact ⟨_, rfl⟩
      obtain ⟨t1, h1⟩ := this
      rw [List.foldlM_cons, h1]
      exact ih t1 fun c hc => hbs c (List.mem_cons_of_mem _ hc)
  have hint2 : ∀ (piola : Nat → M9) (ps : List Nat) (S : Nat → M9), ∃ S', ps.foldlM (fun S p => do
      let t ← (bondsAt (bondsOf nbs) p).foldlM (integralBond B s.w0 P.weights.omega piola) zero
      Outcome.ok (Function.update S p t)) S = .ok S' := by
    intro piola ps
    induction ps with
    | nil => intro S; exact ⟨S, rfl⟩
    | cons p ps ih =>
      intro S
      obtain ⟨t, ht⟩ := hint piola (bondsAt (bondsOf nbs) p) zero fun b hb => (List.mem_filter.mp hb).1
      rw [List.foldlM_cons, ht]
      exact ih _
  obtain ⟨k, hk⟩ := hkin (bondsOf nbs) ⟨s.jacobian, s.inv, s.stretch, s.rotation, fun _ => zero⟩ fun _ h => h
  obtain ⟨sg, hsg⟩ := hU dt k.rate s.stress
  obtain ⟨S, hS⟩ := hint2 (fun b => piolaBond (k.jacobian b) (rotateStress (k.rotation b) (sg b)) (k.inv b))
    (List.range nbs.length) fun _ => zero
  obtain ⟨f, hf⟩ := scatter_ok (vi := fun b => B.volume b.i) (vj := fun b => B.volume b.j)
    (f := forceBond B s.w0 P.weights (fun b => piolaBond (k.jacobian b) (rotateStress (k.rotation b) (sg b)) (k.inv b)) S)
    (bs := bondsOf nbs) 0 (by
      intro b hbm
      unfold forceBond
      split
      · next hom =>
        rw [if_neg]
        · exact ⟨_, rfl⟩
        · push Not
          exact ⟨(hb b hbm hom).2.1, hb' b hbm hom⟩
      · exact ⟨_, rfl⟩)
  refine ⟨⟨P, k, sg, fun b => rotateStress (k.rotation b) (sg b),
    fun b => piolaBond (k.jacobian b) (rotateStress (k.rotation b) (sg b)) (k.inv b), S, f⟩, ?_⟩
  unfold evaluation
  rw [visited_encode, Outcome.ok_bind, hP, Outcome.ok_bind, computeForce, if_neg]
  · rw [hk, Outcome.ok_bind, hsg, Outcome.ok_bind]
    simp only
    unfold stressIntegral
    rw [hS, Outcome.ok_bind, hf, Outcome.ok_bind]
  · rw [List.any_eq_true]
    rintro ⟨p, hp, hne⟩
    have : ¬ (invert3 (P.grad p)).1 = 0 := by simpa using hne
    rw [invert3_code, determinant_eq] at this
    exact this (hd p (List.mem_range.mp hp))

theorem outer_self (a d : V3) : vecMulVec a d *ᵥ d = (d ⬝ᵥ d) • a := by
  funext i
  simp only [mulVec, dotProduct, vecMulVec_apply, Pi.smul_apply, smul_eq_mul, Finset.sum_mul]
  exact Finset.sum_congr rfl fun k _ => by ring

/-- The field `A x + a`. -/
def affine (A : Matrix (Fin 3) (Fin 3) ℝ) (a : V3) : Fin 3 → Poly := fun c =>
  ∑ d, MvPolynomial.C (A c d) * MvPolynomial.X d + MvPolynomial.C (a c)

theorem affine_eval (A : Matrix (Fin 3) (Fin 3) ℝ) (a x : V3) (c : Fin 3) :
    MvPolynomial.eval x (affine A a c) = (A *ᵥ x + a) c := by
  simp [affine, mulVec, dotProduct]

theorem affine_degree (A : Matrix (Fin 3) (Fin 3) ℝ) (a : V3) (c : Fin 3) : (affine A a c).totalDegree ≤ 1 := by
  unfold affine
  refine (MvPolynomial.totalDegree_add _ _).trans (max_le ?_ (by rw [MvPolynomial.totalDegree_C]; exact Nat.zero_le _))
  refine MvPolynomial.totalDegree_finsetSum_le fun d _ => (MvPolynomial.totalDegree_mul _ _).trans ?_
  rw [MvPolynomial.totalDegree_C, MvPolynomial.totalDegree_X]

theorem affine_gradient (A : Matrix (Fin 3) (Fin 3) ℝ) (a x : V3) : gradientOf (affine A a) x = A := by
  ext c d
  unfold gradientOf affine
  rw [map_add, MvPolynomial.pderiv_C, add_zero, map_sum, map_sum, Finset.sum_eq_single d]
  · rw [MvPolynomial.pderiv_C_mul, MvPolynomial.pderiv_X_self]
    simp
  · intro e _ he
    rw [MvPolynomial.pderiv_C_mul, MvPolynomial.pderiv_X_of_ne he]
    simp
  · intro h; exact absurd (Finset.mem_univ _) h

theorem bondOf_affine (B : Body) (A : Matrix (Fin 3) (Fin 3) ℝ) (z : Nat → V3) {b : Bond}
    (hz : z b.j - z b.i = A *ᵥ xi B b) : bondOf B (fun _ => A) z b = A := by
  unfold bondOf
  have e : (1 / 2 : ℝ) • (A + A) = A := by
    rw [← two_smul ℝ A, smul_smul]
    norm_num
  rw [e, hz, sub_self]
  simp

/-- The gradients of affine fields. -/
theorem affine_pre {B : Body} {D : Decompose} (hD : D.Correct) {order : Nat} {nbs : List (List Nat)} (hN : Within nbs nbs.length)
    {d : Nat → ℝ} {w : Weights} (hs : Sound B D order d nbs w) {H : Harm} (hr : Reported nbs d H) {u y v : Nat → V3}
    {g : Ghosts} {P : Pre} (h : precompute B D order H u v nbs.length (bondsOf nbs) w g = .ok P)
    (hh : ∀ p < nbs.length, 0 < B.horizon p) (hw : ∀ p < nbs.length, WellPlaced B order H.bondDamage nbs p)
    {F A : Matrix (Fin 3) (Fin 3) ℝ} {f a : V3} (hu : ∀ k, u k = y k - B.x k) (hy : ∀ k, y k = F *ᵥ B.x k + f)
    (hv : ∀ k, v k = A *ᵥ B.x k + a) :
    (∀ p < nbs.length, (P.grad p).toMatrix = F ∧ (P.gradDot p).toMatrix = A) ∧ ∀ b ∈ bondsOf nbs,
    (bondGradient B P.grad y b).toMatrix = F ∧ (bondGradient B P.gradDot v b).toMatrix = A := by
  obtain ⟨hg, h1, h2⟩ := precompute_parts h
  have ho := (gradientWeights_fold hg).1
  have hs := sound_pre hr hs h
  have e1 : ∀ p < nbs.length, (P.grad p).toMatrix = F := by
    intro p hp
    rw [h1, if_pos hp, gradient_exact hD ho hp (hs p hp).2 (hh p hp) (hw p hp) (Z := affine (F - 1) f)
      (fun c => (affine_degree _ _ c).trans (by omega)) (fun q _ c => by
        rw [affine_eval, hu, hy, sub_mulVec, one_mulVec]
        simp only [Pi.add_apply, Pi.sub_apply]
        ring), toMatrix_identity, affine_gradient, add_sub_cancel]
  have e2 : ∀ p < nbs.length, (P.gradDot p).toMatrix = A := by
    intro p hp
    rw [h2, if_pos hp, gradient_exact hD ho hp (hs p hp).2 (hh p hp) (hw p hp) (Z := affine A a)
      (fun c => (affine_degree _ _ c).trans (by omega)) (fun q _ c => by rw [affine_eval, hv]), toMatrix_zero,
      affine_gradient, zero_add]
  refine ⟨fun p hp => ⟨e1 p hp, e2 p hp⟩, fun b hb => ?_⟩
  obtain ⟨hi, hj⟩ := bonds_within hN b hb
  constructor
  · rw [bondGradient_bondOf, bondOf_congr B (G' := fun _ => F) y (e1 _ hi) (e1 _ hj)]
    exact bondOf_affine B F y (by rw [hy, hy, xi, mulVec_sub]; abel)
  · rw [bondGradient_bondOf, bondOf_congr B (G' := fun _ => A) v (e2 _ hi) (e2 _ hj)]
    exact bondOf_affine B A v (by rw [hv, hv, xi, mulVec_sub]; abel)

theorem weightedVolume_at (B : Body) (omega : Nat → ℝ) (bonds : List Bond) {n p : Nat} (hp : p < n) (w : Nat → ℝ) :
    weightedVolume B omega bonds n w p = ((bondsAt bonds p).map fun b => omega b.b * B.volume b.j).sum := by
  have hs : ∀ (l : List Bond) (t : ℝ), l.foldl (fun t b => t + omega b.b * B.volume b.j) t =
      t + (l.map fun b => omega b.b * B.volume b.j).sum := by
    intro l
    induction l with
    | nil => intro t; simp
    | cons b l ih => intro t; rw [List.foldl_cons, ih, List.map_cons, List.sum_cons, add_assoc]
  have key : ∀ (ps : List Nat) (w : Nat → ℝ), ps.foldl (fun w p => Function.update w p
      ((bondsAt bonds p).foldl (fun t b => t + omega b.b * B.volume b.j) 0)) w p =
      if p ∈ ps then ((bondsAt bonds p).map fun b => omega b.b * B.volume b.j).sum else w p := by
    intro ps
    induction ps with
    | nil => intro w; simp
    | cons q ps ih =>
      intro w
      rw [List.foldl_cons, ih]
      by_cases hq : p ∈ ps
      · simp [hq]
      · by_cases e : p = q
        · subst e
          rw [if_neg hq, if_pos List.mem_cons_self, Function.update_self, hs, zero_add]
        · rw [if_neg hq, if_neg (by simp [hq, e]), Function.update_of_ne e]
  unfold weightedVolume
  rw [key, if_pos (List.mem_range.mpr hp)]

/-- The initial state. -/
theorem start_defined {B : Body} {D : Decompose} {order : Nat} (ho : order ≠ 0) (ghost : Nat → ℝ) {nbs : List (List Nat)}
    (hh : ∀ p < nbs.length, B.horizon p ≠ 0) : ∃ s, initialState B D order ghost nbs.length (encode nbs) = .ok s := by
  obtain ⟨w', h1, h2⟩ := weights_defined (D := D) (order := order) (fun _ => 0) (bondsOf nbs) (List.range nbs.length)
    (fun p hp => hh p (List.mem_range.mp hp)) ⟨0, fun _ => 0, fun _ => 0, fun _ => 0⟩
  unfold initialState
  rw [visited_encode, Outcome.ok_bind]
  unfold gradientWeights
  rw [if_neg ho, h1, Outcome.ok_bind, if_neg (by rw [h2]; simp)]
  exact ⟨_, rfl⟩

theorem start_volume {B : Body} {D : Decompose} {order : Nat} {ghost : Nat → ℝ} {nbs : List (List Nat)} {s : State}
    (h : initialState B D order ghost nbs.length (encode nbs) = .ok s) {p : Nat} (hp : p < nbs.length) :
    s.w0 p = ((bondsAt (bondsOf nbs) p).map fun b =>
      B.influence (len (B.x b.j - B.x p)) (B.horizon p) * B.volume b.j).sum := by
  have hs := sound_start h
  unfold initialState at h
  rw [visited_encode, Outcome.ok_bind] at h
  obtain ⟨w, h1, h2⟩ := Outcome.bind_eq_ok.mp h
  split at h2
  · cases h2
  · cases h2
    show (if p < nbs.length then _ else _) = _
    rw [if_pos hp, weightedVolume_at _ _ _ hp]
    congr 1
    refine List.map_congr_left fun b hb => ?_
    have := ((hs p hp).2 b hb).1
    simp only at this
    rw [this, influenceOf, xi, (mem_bondsAt hb).1, sub_zero, mul_one]

/-- Affine motions of a body whose neighbors are well placed can be evaluated. -/
theorem affine_defined {B : Body} {D : Decompose} (hD : D.Correct) {order : Nat} (ho : order ≠ 0) {U : Update}
    (hU : ∀ dt A s, ∃ s', U dt A s = .ok s') {nbs : List (List Nat)} (hN : Within nbs nbs.length)
    {d : Nat → ℝ} {s : State} (hs : Sound B D order d nbs s.weights) (dt : ℝ) {H : Harm} (hr : Reported nbs d H)
    {u y v : Nat → V3} (g : Ghosts) (hh : ∀ p < nbs.length, 0 < B.horizon p)
    (hw : ∀ p < nbs.length, WellPlaced B order H.bondDamage nbs p)
    {F A : Matrix (Fin 3) (Fin 3) ℝ} {f a : V3} (hF : F.det ≠ 0) (hu : ∀ k, u k = y k - B.x k) (hy : ∀ k, y k = F *ᵥ B.x k + f)
    (hv : ∀ k, v k = A *ᵥ B.x k + a) (hx : ∀ b ∈ bondsOf nbs, B.x b.i ≠ B.x b.j) (hw0 : ∀ p < nbs.length, s.w0 p ≠ 0) :
    ∃ r, evaluation B D order U dt H u y v g s nbs.length (encode nbs) = .ok r := by
  obtain ⟨P, hP, h⟩ := evaluation_defined ho hU dt H u y v g s (D := D) fun p hp => (hh p hp).ne'
  obtain ⟨h1, h2⟩ := affine_pre hD hN hs hr hP hh hw hu hy hv
  refine h (fun p hp => by rw [(h1 p hp).1]; exact hF) fun b hb _ => ?_
  obtain ⟨hi, hj⟩ := bonds_within hN b hb
  exact ⟨hx b hb, hw0 _ hi, hw0 _ hj, by rw [(h2 b hb).1]; exact hF⟩

theorem elastic_eq (bulk shear dt : ℝ) (A sg : M9) : (elasticPoint bulk shear dt none A sg).toMatrix = sg.toMatrix +
    (2 * shear) • Verif.Correspondence.dev (dt • A.toMatrix) +
      (bulk * Verif.Correspondence.diagSum (Verif.Correspondence.scaled A dt)) • (1 : Matrix (Fin 3) (Fin 3) ℝ) := by
  unfold elasticPoint
  exact elasticStress_eq _ _ _ _ _ _

/-- At rest everything can be evaluated, whatever the damage and the velocities. -/
theorem rest_defined {B : Body} {D : Decompose} {order : Nat} (ho : order ≠ 0) {U : Update}
    (hU : ∀ dt A s, ∃ s', U dt A s = .ok s') {nbs : List (List Nat)} (hN : Within nbs nbs.length) (s : State) (dt : ℝ) (H : Harm)
    (v : Nat → V3) (g : Ghosts) (hh : ∀ p < nbs.length, B.horizon p ≠ 0) (hx : ∀ b ∈ bondsOf nbs, B.x b.i ≠ B.x b.j)
    (hw0 : ∀ p < nbs.length, s.w0 p ≠ 0) :
    ∃ r, evaluation B D order U dt H (fun _ => 0) B.x v g s nbs.length (encode nbs) = .ok r ∧
      ∀ p < nbs.length, (r.pre.grad p).toMatrix = 1 := by
  obtain ⟨P, hP, h⟩ := evaluation_defined ho hU dt H (fun _ => 0) B.x v g s (D := D) hh
  have h1 : ∀ p < nbs.length, (P.grad p).toMatrix = 1 := by
    intro p hp
    rw [(precompute_parts hP).2.1, if_pos hp, gradientAt_gradOf, toMatrix_identity, gradOf]
    rw [List.sum_eq_zero, add_zero]
    intro m hm
    obtain ⟨b, _, rfl⟩ := List.mem_map.1 hm
    simp
  obtain ⟨r, hr⟩ := h (fun p hp => by rw [h1 p hp]; simp) fun b hb _ => by
    obtain ⟨hi, hj⟩ := bonds_within hN b hb
    refine ⟨hx b hb, hw0 _ hi, hw0 _ hj, ?_⟩
    rw [bondGradient_bondOf, bondOf_congr B (G' := fun _ => 1) B.x (h1 _ hi) (h1 _ hj),
      bondOf_affine B 1 B.x (by rw [one_mulVec]; rfl)]
    simp
  refine ⟨r, hr, ?_⟩
  have := (evaluation_parts hr).1
  rw [hP] at this
  cases this
  exact h1

/-- The weighted volumes do not change. -/
theorem run_volume {B : Body} {D : Decompose} {order : Nat} {U : Update} {ghost : Nat → ℝ} {nbs : List (List Nat)}
    {A : (Nat → ℝ) → Harm → Prop} {d : Nat → ℝ} {s : State} (h : Run B D order U ghost nbs A d s) {p : Nat} (hp : p < nbs.length) :
    s.w0 p = ((bondsAt (bondsOf nbs) p).map fun b =>
      B.influence (len (B.x b.j - B.x p)) (B.horizon p) * B.volume b.j).sum := by
  induction h with
  | start h => exact start_volume h hp
  | step _ _ _ ih => exact ih
  | again _ _ _ ih => exact ih

theorem Run.mono {B : Body} {D : Decompose} {order : Nat} {U : Update} {ghost : Nat → ℝ} {nbs : List (List Nat)}
    {A A' : (Nat → ℝ) → Harm → Prop} (hA : ∀ d H, A d H → A' d H) {d : Nat → ℝ} {s : State}
    (h : Run B D order U ghost nbs A d s) : Run B D order U ghost nbs A' d s := by
  induction h with
  | start h => exact .start h
  | step _ a h ih => exact .step ih (hA _ _ a) h
  | again _ a h ih => exact .again ih (hA _ _ a) h

end Verif.Assoc
