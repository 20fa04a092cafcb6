import Verif.Assoc.Cases

/-!
# Bond-associated correspondence material: gradient weights

C138: the deformation gradients of polynomial fields are exact; the weights follow the damage of the bonds.
-/

noncomputable section

namespace Verif.Assoc

open Verif Verif.Neigh Verif.Mech Verif.Tensor MvPolynomial
open Verif.Correspondence (bondsAt identity mem_bondsAt toMatrix_identity)
open scoped Classical

/-- **C138** Where the intact neighbors of a point determine polynomials of the order of accuracy, the deformation
gradient of a polynomial displacement of at most that degree is exact, in every evaluation of a run in which
damage is reported. -/
theorem C138_exact {B : Body} {D : Decompose} (hD : D.Correct) {order : Nat} {U : Update} {ghost : Nat → ℝ}
    {nbs : List (List Nat)} {d : Nat → ℝ} {s : State} (hrun : Run B D order U ghost nbs (Reported nbs) d s)
    {dt : ℝ} {H : Harm} (hr : Reported nbs d H) {u y v : Nat → V3} {g : Ghosts} {r : Result}
    (h : evaluation B D order U dt H u y v g s nbs.length (encode nbs) = .ok r)
    {p : Nat} (hp : p < nbs.length) (hh : 0 < B.horizon p) (hw : WellPlaced B order H.bondDamage nbs p)
    {Z : Fin 3 → MvPolynomial (Fin 3) ℝ} (hZ : ∀ c, (Z c).totalDegree ≤ order) (hz : Follows B nbs p Z u) :
    (r.pre.grad p).toMatrix = 1 + gradientOf Z (B.x p) := by
  obtain ⟨hg, h1, -⟩ := precompute_parts (evaluation_parts h).1
  have hs := sound_step hr (sound_run hrun) h
  rw [h1, if_pos hp, gradient_exact hD (gradientWeights_fold hg).1 hp (hs p hp).2 hh hw hZ hz, toMatrix_identity]

example : ∃ D : Decompose, D.Correct ∧ ∃ s r,
    Run tetra D 1 (elasticUpdate 3 1) (fun _ => 0) tetraNbs (Reported tetraNbs) (fun _ => 0) s ∧ Reported tetraNbs (fun _ => 0) intact ∧
    evaluation tetra D 1 (elasticUpdate 3 1) 1 intact u0 y0 v0 g0 s tetraNbs.length (encode tetraNbs) = .ok r ∧
    WellPlaced tetra 1 intact.bondDamage tetraNbs 0 ∧ Follows tetra tetraNbs 0 (affine (shear0 - 1) 0) u0 ∧
    (∀ c, (affine (shear0 - 1) 0 c).totalDegree ≤ 1) ∧ (r.pre.grad 0).toMatrix = shear0 := by
  obtain ⟨D, hD, s, hs, -, r, hr⟩ := tetra_case
  have hrun := hs.mono fun _ _ a => a.reported
  have hf : Follows tetra tetraNbs 0 (affine (shear0 - 1) 0) u0 := by
    intro q _ c
    rw [affine_eval, u0, y0, Matrix.sub_mulVec, Matrix.one_mulVec]
    simp only [Pi.add_apply, Pi.sub_apply]
    ring
  have hw := tetra_placed (d := intact.bondDamage) (fun _ => rfl) (p := 0) (by decide)
  refine ⟨D, hD, s, r, hrun, intact_tame.reported, hr, hw, hf, affine_degree _ _, ?_⟩
  rw [C138_exact hD hrun intact_tame.reported hr (by decide) (tetra_horizon 0 (by decide)) hw (affine_degree _ _) hf,
    affine_gradient, add_sub_cancel]

/-- **C138** So is its rate for a polynomial velocity. -/
theorem C138_exact_rate {B : Body} {D : Decompose} (hD : D.Correct) {order : Nat} {U : Update} {ghost : Nat → ℝ}
    {nbs : List (List Nat)} {d : Nat → ℝ} {s : State} (hrun : Run B D order U ghost nbs (Reported nbs) d s)
    {dt : ℝ} {H : Harm} (hr : Reported nbs d H) {u y v : Nat → V3} {g : Ghosts} {r : Result}
    (h : evaluation B D order U dt H u y v g s nbs.length (encode nbs) = .ok r)
    {p : Nat} (hp : p < nbs.length) (hh : 0 < B.horizon p) (hw : WellPlaced B order H.bondDamage nbs p)
    {Z : Fin 3 → MvPolynomial (Fin 3) ℝ} (hZ : ∀ c, (Z c).totalDegree ≤ order) (hz : Follows B nbs p Z v) :
    (r.pre.gradDot p).toMatrix = gradientOf Z (B.x p) := by
  obtain ⟨hg, -, h1⟩ := precompute_parts (evaluation_parts h).1
  have hs := sound_step hr (sound_run hrun) h
  rw [h1, if_pos hp, gradient_exact hD (gradientWeights_fold hg).1 hp (hs p hp).2 hh hw hZ hz, toMatrix_zero, zero_add]

example : ∃ D : Decompose, D.Correct ∧ ∃ s r,
    Run tetra D 1 (elasticUpdate 3 1) (fun _ => 0) tetraNbs (Reported tetraNbs) (fun _ => 0) s ∧
    evaluation tetra D 1 (elasticUpdate 3 1) 1 intact u0 y0 v0 g0 s tetraNbs.length (encode tetraNbs) = .ok r ∧
    WellPlaced tetra 1 intact.bondDamage tetraNbs 0 ∧ Follows tetra tetraNbs 0 (affine (spin0 * shear0) 0) v0 ∧
    (r.pre.gradDot 0).toMatrix = spin0 * shear0 := by
  obtain ⟨D, hD, s, hs, -, r, hr⟩ := tetra_case
  have hrun := hs.mono fun _ _ a => a.reported
  have hf : Follows tetra tetraNbs 0 (affine (spin0 * shear0) 0) v0 := by
    intro q _ c
    rw [affine_eval, v0, y0, Matrix.mulVec_add, Matrix.mulVec_mulVec, Matrix.mulVec_zero, add_zero]
  have hw := tetra_placed (d := intact.bondDamage) (fun _ => rfl) (p := 0) (by decide)
  refine ⟨D, hD, s, r, hrun, hr, hw, hf, ?_⟩
  rw [C138_exact_rate hD hrun intact_tame.reported hr (by decide) (tetra_horizon 0 (by decide)) hw (affine_degree _ _) hf,
    affine_gradient]

/-- **C138** In such a run the influence of a bond is always that of its present damage. -/
theorem C138_influence {B : Body} {D : Decompose} {order : Nat} {U : Update} {ghost : Nat → ℝ}
    {nbs : List (List Nat)} {d : Nat → ℝ} {s : State} (hrun : Run B D order U ghost nbs (Reported nbs) d s)
    {dt : ℝ} {H : Harm} (hr : Reported nbs d H) {u y v : Nat → V3} {g : Ghosts} {r : Result}
    (h : evaluation B D order U dt H u y v g s nbs.length (encode nbs) = .ok r)
    {p t j : Nat} {ns : List Nat} (hp : nbs[p]? = some ns) (ht : ns[t]? = some j) :
    r.pre.weights.omega (bondPos nbs p t) =
      B.influence (len (B.x j - B.x p)) (B.horizon p) * (1 - H.bondDamage (bondPos nbs p t)) := by
  have hlt : p < nbs.length := (List.getElem?_eq_some_iff.1 hp).1
  have hm : (⟨p, j, bondPos nbs p t⟩ : Bond) ∈ bondsAt (bondsOf nbs) p := by
    unfold bondsAt
    rw [filter_bondsOf nbs hp]
    exact List.mem_map.2 ⟨(j, t), List.mk_mem_zipIdx_iff_getElem?.2 (by simpa using ht), rfl⟩
  exact ((sound_step hr (sound_run hrun) h p hlt).2 _ hm).1

example : ∃ D : Decompose, D.Correct ∧ ∃ s r,
    Run tetra D 1 (elasticUpdate 3 1) (fun _ => 0) tetraNbs (Reported tetraNbs) (fun _ => 0) s ∧ Reported tetraNbs (fun _ => 0) lone ∧
    evaluation tetra D 1 (elasticUpdate 3 1) 1 lone (fun _ => 0) tetra.x v0 g0 s tetraNbs.length (encode tetraNbs) = .ok r ∧
    r.pre.weights.omega (bondPos tetraNbs 0 2) = 0 ∧ r.pre.weights.omega (bondPos tetraNbs 0 1) = 1 := by
  obtain ⟨D, hD, s, hs, -⟩ := tetra_case
  have hrun := hs.mono fun _ _ a => a.reported
  obtain ⟨r, hr⟩ := tetra_breaks (elastic_total 3 1) hrun 1 lone v0 g0
  refine ⟨D, hD, s, r, hrun, lone_reported _, hr, ?_, ?_⟩
  · rw [C138_influence hrun (lone_reported _) hr (t := 2) (j := 3) (ns := [1, 2, 3]) rfl rfl, lone_broken (p := 0) (t := 2) rfl rfl (Or.inr rfl)]
    norm_num
  · rw [C138_influence hrun (lone_reported _) hr (t := 1) (j := 2) (ns := [1, 2, 3]) rfl rfl]
    norm_num [tetra, lone, bondPos]

/-- **C138** The weighted volumes are those of the undamaged body, throughout a run. -/
theorem C138_weighted_volume {B : Body} {D : Decompose} {order : Nat} {U : Update} {ghost : Nat → ℝ} {nbs : List (List Nat)}
    {A : (Nat → ℝ) → Harm → Prop} {d : Nat → ℝ} {s : State} (h : Run B D order U ghost nbs A d s) {p : Nat} (hp : p < nbs.length) :
    s.w0 p = ((nbs.getD p []).map fun j => B.influence (len (B.x j - B.x p)) (B.horizon p) * B.volume j).sum := by
  rw [run_volume h hp, bonds_at_sum nbs hp fun b => B.influence (len (B.x b.j - B.x p)) (B.horizon p) * B.volume b.j]
  have e : ∀ (l : List Nat) (k : Nat) (f : Nat → ℝ), ((l.zipIdx k).map fun x => f x.1) = l.map f := by
    intro l
    induction l with
    | nil => intro k f; rfl
    | cons a l ih => intro k f; rw [List.zipIdx_cons, List.map_cons, List.map_cons, ih]
  exact congrArg List.sum (e _ 0 fun j => B.influence (len (B.x j - B.x p)) (B.horizon p) * B.volume j)

example : ∃ (D : Decompose) (s : State), Run tetra D 1 (elasticUpdate 3 1) (fun _ => 0) tetraNbs (Tame tetraNbs) (fun _ => 0) s ∧ s.w0 0 = 3 := by
  obtain ⟨D, _, s, hs, -⟩ := tetra_case
  refine ⟨D, s, hs, ?_⟩
  rw [C138_weighted_volume hs (by decide)]
  norm_num [tetra, tetraNbs]

/-- The fraction of broken bonds of a point. -/
def broken (nbs : List (List Nat)) (d : Nat → ℝ) (p : Nat) : ℝ :=
  (((nbs.getD p []).zipIdx.map fun x => d (bondPos nbs p x.2)).sum) / (nbs.getD p []).length

/-- **C138** Damage is reported if the damage of a point is the fraction of its broken bonds, before and after, bonds
break all at once and stay broken, and no point has 10^15 neighbors. -/
theorem C138_reported {nbs : List (List Nat)} {d : Nat → ℝ} {H : Harm} (hd : ∀ k, d k = 0 ∨ d k = 1)
    (hH : ∀ k, H.bondDamage k = 1 ∨ H.bondDamage k = d k)
    (hN : ∀ p < nbs.length, H.damageN p = broken nbs d p)
    (hNP1 : ∀ p < nbs.length, H.damageNP1 p = broken nbs H.bondDamage p)
    (hc : ∀ ns ∈ nbs, ns.length < 10 ^ 15) : Reported nbs d H := by
  intro p ns t j hp ht hne
  have hlt : p < nbs.length := (List.getElem?_eq_some_iff.1 hp).1
  have hget : nbs.getD p [] = ns := by rw [List.getD_eq_getElem?_getD, hp, Option.getD_some]
  rw [hN p hlt, hNP1 p hlt, broken, broken, hget, ← sub_div]
  have hlen : 0 < ns.length := (Nat.zero_le t).trans_lt (List.getElem?_eq_some_iff.1 ht).1
  have hmem : (j, t) ∈ ns.zipIdx := List.mk_mem_zipIdx_iff_getElem?.2 (by simpa using ht)
  have hle : ∀ k, d k ≤ H.bondDamage k := fun k => by
    rcases hH k with h | h
    · rw [h]; rcases hd k with h | h <;> rw [h] <;> norm_num
    · rw [h]
  have hone : 1 + d (bondPos nbs p t) ≤ H.bondDamage (bondPos nbs p t) := by
    rcases hH (bondPos nbs p t) with h | h
    · rw [h] at hne ⊢
      rcases hd (bondPos nbs p t) with h' | h'
      · rw [h']; norm_num
      · exact absurd h'.symm hne
    · exact absurd h hne
  have key : ∀ l : List (Nat × Nat), (j, t) ∈ l →
      1 + (l.map fun x => d (bondPos nbs p x.2)).sum ≤ (l.map fun x => H.bondDamage (bondPos nbs p x.2)).sum := by
    intro l
    induction l with
    | nil => intro h; cases h
    | cons x l ih =>
      intro hx
      rw [List.map_cons, List.sum_cons, List.map_cons, List.sum_cons]
      rcases List.mem_cons.mp hx with rfl | hx
      · have : (l.map fun x => d (bondPos nbs p x.2)).sum ≤ (l.map fun x => H.bondDamage (bondPos nbs p x.2)).sum :=
          List.sum_le_sum fun x _ => hle _
        linarith
      · have := ih hx
        have := hle (bondPos nbs p x.2)
        linarith
  have hk := key _ hmem
  have hl : (ns.length : ℝ) < 10 ^ 15 := by exact_mod_cast hc ns (List.mem_of_getElem? hp)
  have hl0 : (0 : ℝ) < ns.length := by exact_mod_cast hlen
  rw [div_lt_div_iff₀ (by positivity) hl0]
  nlinarith

example : (∀ k, (fun _ => 0 : Nat → ℝ) k = 0 ∨ (fun _ => 0 : Nat → ℝ) k = 1) ∧
    (∀ k, lone.bondDamage k = 1 ∨ lone.bondDamage k = 0) ∧ (∀ p < tetraNbs.length, lone.damageN p = broken tetraNbs (fun _ => 0) p) ∧
    (∀ p < tetraNbs.length, lone.damageNP1 p = broken tetraNbs lone.bondDamage p) ∧ ∀ ns ∈ tetraNbs, ns.length < 10 ^ 15 := by
  refine ⟨fun _ => Or.inl rfl, fun k => ?_, fun p _ => by simp [lone, broken], fun p hp => ?_, by decide⟩
  · simp only [lone]
    split
    · exact Or.inl rfl
    · exact Or.inr rfl
  · have hp : p < 4 := hp
    interval_cases p <;> norm_num [lone, broken, tetraNbs, bondPos]

/-- **C138** The failure "gradient weights" that the code documents is never raised, whatever the decomposition returns. -/
theorem C138_silent (B : Body) (D : Decompose) (order : Nat) (H : Harm) (u v : Nat → V3) (n : Nat)
    (bonds : List Bond) (w : Weights) (g : Ghosts) (f : Fault) :
    precompute B D order H u v n bonds w g ≠ .fail f := by
  intro h
  have hp : ∀ (ps : List Nat) (s : Weights), s.code = 0 →
      (∃ s', ps.foldlM (weightsPoint B D order H.bondDamage bonds) s = .ok s' ∧ s'.code = 0) ∨
        ps.foldlM (weightsPoint B D order H.bondDamage bonds) s = .ub := by
    intro ps
    induction ps with
    | nil => intro s hs; exact Or.inl ⟨s, rfl, hs⟩
    | cons q ps ih =>
      intro s hs
      rw [List.foldlM_cons]
      unfold weightsPoint
      split
      · split
        · exact Or.inr rfl
        · exact ih _ (by rw [evaluate_code, hs])
      · exact ih _ hs
  unfold precompute gradientWeights at h
  split at h
  · cases h
  · rcases hp (List.range n) { w with flag := updateFlag H.damageN H.damageNP1 n w.flag, code := 0 } rfl with
      ⟨s', h1, h2⟩ | h1
    · rw [h1, Outcome.ok_bind, if_neg (by rw [h2]; simp)] at h
      cases h
    · rw [h1] at h
      cases h

/-- Two points on a line, neighbors of each other. -/
def rod : Body where
  x := fun k => if k = 1 then ![1, 0, 0] else 0
  volume := fun _ => 1
  horizon := fun _ => 2
  influence := fun _ _ => 1

/-- **C138** Hence wrong deformation gradients go unnoticed: where the neighbors do not determine linear fields, the gradient of
a linear displacement need not be its gradient, though no error is raised. -/
theorem C138_singular : ∃ (D : Decompose) (s : State) (v : Nat → V3) (r : Result) (Z : Fin 3 → MvPolynomial (Fin 3) ℝ), D.Correct ∧
    initialState rod D 1 (fun _ => 0) 2 (encode [[1], [0]]) = .ok s ∧
    evaluation rod D 1 (elasticUpdate 3 1) 1 intact (fun _ => 0) rod.x v g0 s 2 (encode [[1], [0]]) = .ok r ∧
    (∀ c, (Z c).totalDegree ≤ 1) ∧ Follows rod [[1], [0]] 0 Z (fun _ => 0) ∧
    (r.pre.grad 0).toMatrix ≠ 1 + gradientOf Z (rod.x 0) := by
  obtain ⟨D, hD⟩ := correct_exists
  obtain ⟨s, hs⟩ := start_defined (B := rod) (D := D) one_ne_zero (fun _ => 0) (nbs := [[1], [0]]) fun p hp => two_ne_zero
  have hw : ∀ p < 2, s.w0 p ≠ 0 := by
    intro p hp
    rw [C138_weighted_volume (nbs := [[1], [0]]) (.start (U := elasticUpdate 3 1) (A := fun _ _ => True) hs) hp]
    interval_cases p <;> norm_num [rod]
  have hx : ∀ b ∈ bondsOf [[1], [0]], rod.x b.i ≠ rod.x b.j := by
    intro b hb e
    have e0 := congrFun e 0
    obtain ⟨ns, h1, h2⟩ := mem_bondsOf hb
    obtain ⟨i, j, t⟩ := b
    rcases i with _ | _ | i <;> simp at h1 <;> subst h1 <;> simp at h2 <;> subst h2 <;> simp [rod] at e0
  obtain ⟨r, hr, h1⟩ := rest_defined (B := rod) (D := D) one_ne_zero (elastic_total 3 1) (nbs := [[1], [0]])
    ⟨le_refl _, by simp⟩ s 1 intact (fun _ => 0) g0 (fun _ _ => two_ne_zero) hx hw
  refine ⟨D, s, fun _ => 0, r, affine (!![0, 0, 0; 0, 1, 0; 0, 0, 0]) 0, hD, hs, hr, affine_degree _ _, ?_, ?_⟩
  · intro q _ c
    rw [affine_eval]
    by_cases hq : q = 1
    · subst hq
      fin_cases c <;> simp [rod, Matrix.mulVec, dotProduct, Fin.sum_univ_three]
    · simp [rod, hq]
  · rw [h1 0 (by decide), affine_gradient]
    intro h
    have := congrFun (congrFun h 1) 1
    simp at this

/-- **C138** Without growth of damage the bond damage is not looked at: whatever it is, the evaluation is that of the
weights computed before. -/
theorem C138_unread {B : Body} {D : Decompose} {order : Nat} {U : Update} {dt : ℝ} {H H' : Harm}
    {u y v : Nat → V3} {g : Ghosts} {s : State} {n : Nat} {l : List Nat} (hs : ∀ p < n, s.weights.flag p = 1)
    (hg : ∀ p < n, H.damageNP1 p ≤ H.damageN p) (hg' : ∀ p < n, H'.damageNP1 p ≤ H'.damageN p) :
    evaluation B D order U dt H u y v g s n l = evaluation B D order U dt H' u y v g s n l := by
  have hflag : ∀ K : Harm, (∀ p < n, K.damageNP1 p ≤ K.damageN p) →
      updateFlag K.damageN K.damageNP1 n s.weights.flag = s.weights.flag := by
    intro K hK
    unfold updateFlag
    have : ∀ (ps : List Nat) (f : Nat → ℝ), (∀ p ∈ ps, p < n) → ps.foldl (fun f p =>
        if 1 / 10 ^ 15 < K.damageNP1 p - K.damageN p then Function.update f p (0 : ℝ) else f) f = f := by
      intro ps
      induction ps with
      | nil => intro f _; rfl
      | cons q ps ih =>
        intro f hq
        rw [List.foldl_cons, if_neg, ih f fun p hp => hq p (List.mem_cons_of_mem _ hp)]
        have h1 := hK q (hq q List.mem_cons_self)
        have h2 : (0 : ℝ) < 1 / 10 ^ 15 := by positivity
        linarith
    exact this _ _ fun p hp => List.mem_range.mp hp
  have hw : ∀ (d : Nat → ℝ) (bonds : List Bond) (w : Weights), (∀ p < n, w.flag p = 1) →
      (List.range n).foldlM (weightsPoint B D order d bonds) w = .ok w := by
    intro d bonds w hw
    have : ∀ ps : List Nat, (∀ p ∈ ps, p < n) → ps.foldlM (weightsPoint B D order d bonds) w = .ok w := by
      intro ps
      induction ps with
      | nil => intro _; rfl
      | cons q ps ih =>
        intro hq
        have e : weightsPoint B D order d bonds w q = .ok w := by
          unfold weightsPoint
          rw [hw q (hq q List.mem_cons_self), if_neg (by norm_num)]
        rw [List.foldlM_cons, e]
        exact ih fun p hp => hq p (List.mem_cons_of_mem _ hp)
    exact this _ fun p hp => List.mem_range.mp hp
  have hpre : ∀ bonds, precompute B D order H u v n bonds s.weights g = precompute B D order H' u v n bonds s.weights g := by
    intro bonds
    unfold precompute gradientWeights
    rw [hflag H hg, hflag H' hg', hw H.bondDamage bonds { s.weights with code := 0 } hs,
      hw H'.bondDamage bonds { s.weights with code := 0 } hs]
  unfold evaluation
  congr 1
  funext bonds
  rw [hpre bonds]

example : ∃ (D : Decompose) (s : State), (∀ p < tetraNbs.length, s.weights.flag p = 1) ∧
    ∃ r, evaluation tetra D 1 (elasticUpdate 3 1) 1 intact u0 y0 v0 g0 s tetraNbs.length (encode tetraNbs) = .ok r := by
  obtain ⟨D, _, s, hs, -, h⟩ := tetra_case
  exact ⟨D, s, fun p hp => (sound_run (hs.mono fun _ _ a => a.reported) p hp).1, h⟩

/-- **C138** If one evaluation of a step breaks a bond and the next one of the same step does not, the bond stays broken for
the weights: they are those of the earlier evaluation. -/
theorem C138_stale {B : Body} {D : Decompose} {order : Nat} {U : Update} {ghost : Nat → ℝ}
    {nbs : List (List Nat)} {d : Nat → ℝ} {s : State} (hrun : Run B D order U ghost nbs (Reported nbs) d s)
    {dt : ℝ} {H : Harm} (hr : Reported nbs d H) {u y v : Nat → V3} {g : Ghosts} {r : Result}
    (h : evaluation B D order U dt H u y v g s nbs.length (encode nbs) = .ok r)
    {H' : Harm} (hg : ∀ p < nbs.length, H'.damageNP1 p ≤ H'.damageN p) {u' y' v' : Nat → V3} {g' : Ghosts} {r' : Result}
    (h' : evaluation B D order U dt H' u' y' v' g' (r.trial s) nbs.length (encode nbs) = .ok r')
    {p t j : Nat} {ns : List Nat} (hp : nbs[p]? = some ns) (ht : ns[t]? = some j) :
    r'.pre.weights.omega (bondPos nbs p t) =
      B.influence (len (B.x j - B.x p)) (B.horizon p) * (1 - H.bondDamage (bondPos nbs p t)) := by
  have hrun' := Run.again hrun hr h
  have hs := sound_run hrun'
  rw [C138_unread (H' := { H' with bondDamage := H.bondDamage }) (fun p hp => (hs p hp).1) hg hg] at h'
  exact C138_influence hrun' (H := { H' with bondDamage := H.bondDamage }) (fun p ns t j _ _ hne => absurd rfl hne) h' hp ht

example : ∃ (D : Decompose) (s : State) (r r' : Result), D.Correct ∧
    Run tetra D 1 (elasticUpdate 3 1) (fun _ => 0) tetraNbs (Reported tetraNbs) (fun _ => 0) s ∧
    evaluation tetra D 1 (elasticUpdate 3 1) 1 lone (fun _ => 0) tetra.x v0 g0 s tetraNbs.length (encode tetraNbs) = .ok r ∧
    evaluation tetra D 1 (elasticUpdate 3 1) 1 intact (fun _ => 0) tetra.x v0 g0 (r.trial s) tetraNbs.length (encode tetraNbs) = .ok r' ∧
    r'.pre.weights.omega (bondPos tetraNbs 0 2) = 0 := by
  obtain ⟨D, hD, s, hs, -⟩ := tetra_case
  have hrun := hs.mono fun _ _ a => a.reported
  obtain ⟨r, hr⟩ := tetra_breaks (elastic_total 3 1) hrun 1 lone v0 g0
  obtain ⟨r', hr'⟩ := tetra_breaks (elastic_total 3 1) (.again hrun (lone_reported _) hr) 1 intact v0 g0
  refine ⟨D, s, r, r', hD, hrun, hr, hr', ?_⟩
  rw [C138_stale hrun (lone_reported _) hr (fun _ _ => le_refl _) hr' (t := 2) (j := 3) (ns := [1, 2, 3]) rfl rfl,
    lone_broken (p := 0) (t := 2) rfl rfl (Or.inr rfl)]
  norm_num

/-- **C138** Hence bonds broken from the beginning, as "Initial Damage" sets them after the material is initialized, at
both steps, keep their influence: in the first evaluation every bond acts as if intact. -/
theorem C138_initial_damage {B : Body} {D : Decompose} {order : Nat} {U : Update} {ghost : Nat → ℝ} {nbs : List (List Nat)}
    {s : State} (h0 : initialState B D order ghost nbs.length (encode nbs) = .ok s) {dt : ℝ} {H : Harm}
    (hH : H.damageNP1 = H.damageN) {u y v : Nat → V3} {g : Ghosts} {r : Result}
    (h : evaluation B D order U dt H u y v g s nbs.length (encode nbs) = .ok r)
    {p t j : Nat} {ns : List Nat} (hp : nbs[p]? = some ns) (ht : ns[t]? = some j) :
    r.pre.weights.omega (bondPos nbs p t) = B.influence (len (B.x j - B.x p)) (B.horizon p) := by
  have hs := sound_start h0
  have e := C138_unread (B := B) (D := D) (order := order) (U := U) (dt := dt) (H := H)
    (H' := ⟨fun _ => 0, fun _ => 0, fun _ => 0⟩) (u := u) (y := y) (v := v) (g := g) (s := s) (n := nbs.length)
    (l := encode nbs) (fun p hp => (hs p hp).1) (fun p _ => by rw [hH]) fun p _ => le_refl _
  rw [e] at h
  have := C138_influence (U := U) (.start (A := Reported nbs) h0) (H := ⟨fun _ => 0, fun _ => 0, fun _ => 0⟩)
    (fun p ns t j _ _ hne => absurd rfl hne) h hp ht
  simpa using this

/-- All bonds of the last corner are broken from the beginning. -/
def born : Harm := { lone with damageN := lone.damageNP1 }

example : ∃ (D : Decompose) (s : State) (r : Result), D.Correct ∧
    initialState tetra D 1 (fun _ => 0) tetraNbs.length (encode tetraNbs) = .ok s ∧ born.damageNP1 = born.damageN ∧
    evaluation tetra D 1 (elasticUpdate 3 1) 1 born (fun _ => 0) tetra.x v0 g0 s tetraNbs.length (encode tetraNbs) = .ok r ∧
    born.bondDamage (bondPos tetraNbs 0 2) = 1 ∧ r.pre.weights.omega (bondPos tetraNbs 0 2) = 1 := by
  obtain ⟨D, hD⟩ := correct_exists
  obtain ⟨s, h, hs⟩ := tetra_start D (elasticUpdate 3 1) (Reported tetraNbs)
  obtain ⟨r, hr⟩ := tetra_breaks (elastic_total 3 1) hs 1 born v0 g0
  exact ⟨D, s, r, hD, h, rfl, hr, lone_broken (p := 0) (t := 2) rfl rfl (Or.inr rfl),
    C138_initial_damage h rfl hr (t := 2) (j := 3) (ns := [1, 2, 3]) rfl rfl⟩

end Verif.Assoc
