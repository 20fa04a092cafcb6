import Verif.Assoc.OutputSpec
import Verif.Assoc.Cases

/-!
# Bond-associated correspondence material: lemmas on the written fields
-/

noncomputable section

namespace Verif.Assoc

open Verif Verif.Neigh Verif.Mech Verif.Tensor Matrix
open Verif.Correspondence (bondsAt identity newStretch newRotation unrotated rotateStress toMatrix_mTm toMatrix_identity mem_bondsAt)
open scoped Classical

theorem fold_update {α : Type} (f : Nat → α) (ps : List Nat) (a : Nat → α) (p : Nat) :
    ps.foldl (fun a q => Function.update a q (f q)) a p = if p ∈ ps then f p else a p := by
  induction ps generalizing a with
  | nil => simp
  | cons q ps ih =>
    rw [List.foldl_cons, ih]
    by_cases hq : p ∈ ps
    · simp [hq]
    · by_cases e : p = q
      · subst e
        rw [if_neg hq, if_pos List.mem_cons_self, Function.update_self]
      · rw [if_neg hq, if_neg (by simp [hq, e]), Function.update_of_ne e]

theorem updateStrain_at (dt : ℝ) (P : Pre) {n p : Nat} (hp : p < n) (E : Nat → M9) :
    updateStrain dt P n E p = strainStep dt (P.grad p) (P.gradDot p) (E p) := by
  unfold updateStrain
  rw [fold_update, if_pos (List.mem_range.mpr hp)]

theorem toMatrix_strainStep (dt : ℝ) (F G E : M9) : (strainStep dt F G E).toMatrix =
    E.toMatrix + (dt / 2) • (G.toMatrixᵀ * F.toMatrix + F.toMatrixᵀ * G.toMatrix) := by
  have h : ∀ i j, (matrixMultiply true false 1 G F).toMatrix i j = (G.toMatrixᵀ * F.toMatrix) i j := fun i j => by rw [toMatrix_mTm]
  have e : F.toMatrixᵀ * G.toMatrix = (G.toMatrixᵀ * F.toMatrix)ᵀ := by rw [transpose_mul, transpose_transpose]
  rw [e]
  generalize G.toMatrixᵀ * F.toMatrix = X at h
  ext i j
  rw [Matrix.add_apply, Matrix.smul_apply, Matrix.add_apply, transpose_apply, ← h i j, ← h j i, strainStep, smul_eq_mul]
  fin_cases i <;> fin_cases j <;> simp [M9.toMatrix] <;> ring

/-- What the loop over the points stores. -/
theorem nodeKin_at (dt : ℝ) (P : Pre) (n : Nat) (o : Shown) {p : Nat} (hp : p < n) :
    (nodeKin dt P n o).stretch p = newStretch dt (matrixMultiply false false 1 (P.gradDot p) (invert3 (P.grad p)).2) (o.stretch p) ∧
    (nodeKin dt P n o).rotation p =
      newRotation dt (matrixMultiply false false 1 (P.gradDot p) (invert3 (P.grad p)).2) (o.stretch p) (o.rotation p) ∧
    (nodeKin dt P n o).rate p = unrotated (matrixMultiply false false 1 (P.gradDot p) (invert3 (P.grad p)).2)
      ((nodeKin dt P n o).rotation p) := by
  have key : ∀ (ps : List Nat) (k : NodeKin),
      (ps.foldl (nodePoint dt P o.stretch o.rotation) k).stretch = ps.foldl (fun a q => Function.update a q
        (newStretch dt (matrixMultiply false false 1 (P.gradDot q) (invert3 (P.grad q)).2) (o.stretch q))) k.stretch ∧
      (ps.foldl (nodePoint dt P o.stretch o.rotation) k).rotation = ps.foldl (fun a q => Function.update a q
        (newRotation dt (matrixMultiply false false 1 (P.gradDot q) (invert3 (P.grad q)).2) (o.stretch q) (o.rotation q))) k.rotation ∧
      (ps.foldl (nodePoint dt P o.stretch o.rotation) k).rate = ps.foldl (fun a q => Function.update a q
        (unrotated (matrixMultiply false false 1 (P.gradDot q) (invert3 (P.grad q)).2)
          (newRotation dt (matrixMultiply false false 1 (P.gradDot q) (invert3 (P.grad q)).2) (o.stretch q) (o.rotation q)))) k.rate := by
    intro ps
    induction ps with
    | nil => exact fun k => ⟨rfl, rfl, rfl⟩
    | cons q ps ih => exact fun k => ih _
  obtain ⟨h1, h2, h3⟩ := key (List.range n) ⟨0, o.stretch, o.rotation, fun _ => zero⟩
  have hm := List.mem_range.mpr hp
  unfold nodeKin
  rw [h1, h2, h3]
  simp only [fold_update, if_pos hm]
  exact ⟨trivial, trivial, trivial⟩

theorem nodeKin_code (dt : ℝ) (P : Pre) (n : Nat) (o : Shown) :
    (nodeKin dt P n o).code = 0 ↔ ∀ p < n, (invert3 (P.grad p)).1 = 0 := by
  have key : ∀ (ps : List Nat) (k : NodeKin), (ps.foldl (nodePoint dt P o.stretch o.rotation) k).code = 0 ↔
      (∀ p ∈ ps, (invert3 (P.grad p)).1 = 0) ∧ k.code = 0 := by
    intro ps
    induction ps with
    | nil => intro k; simp
    | cons q ps ih =>
      intro k
      rw [List.foldl_cons, ih]
      simp only [nodePoint, List.mem_cons, forall_eq_or_imp]
      by_cases hq : (invert3 (P.grad q)).1 = 0
      · simp [hq]
      · have h0 : 0 < (invert3 (P.grad q)).1 := Nat.pos_of_ne_zero hq
        simp [hq, h0]
  unfold nodeKin
  rw [key]
  simp

structure WrittenParts (N : Update) (dt : ℝ) (P : Pre) (n : Nat) (o : Shown) (w : Written) : Prop where
  code : (nodeKin dt P n o).code = 0
  stretch : w.kept.stretch = (nodeKin dt P n o).stretch
  rotation : w.kept.rotation = (nodeKin dt P n o).rotation
  rate : w.rate = (nodeKin dt P n o).rate
  stress : N dt w.rate o.stress = .ok w.kept.stress
  strain : w.kept.strain = updateStrain dt P n o.strain
  cauchy : ∀ p, w.cauchy p = rotateStress (w.kept.rotation p) (w.kept.stress p)

theorem written_parts {N : Update} {dt : ℝ} {P : Pre} {n : Nat} {o : Shown} {w : Written} (h : written N dt P n o = .ok w) :
    WrittenParts N dt P n o w := by
  unfold written at h
  simp only at h
  split at h
  · cases h
  next hc =>
  obtain ⟨sg, h1, h2⟩ := Outcome.bind_eq_ok.mp h
  cases h2
  exact ⟨not_not.mp hc, rfl, rfl, rfl, h1, rfl, fun _ => rfl⟩

theorem evaluationWritten_parts {B : Body} {D : Decompose} {order : Nat} {U N : Update} {dt : ℝ} {H : Harm} {u y v : Nat → V3}
    {g : Ghosts} {s : State} {o : Shown} {n : Nat} {l : List Nat} {r : Result} {w : Written}
    (h : evaluationWritten B D order U N dt H u y v g s o n l = .ok (r, w)) :
    evaluation B D order U dt H u y v g s n l = .ok r ∧ written N dt r.pre n o = .ok w := by
  unfold evaluationWritten at h
  obtain ⟨r', h1, h2⟩ := Outcome.bind_eq_ok.mp h
  obtain ⟨w', h3, h4⟩ := Outcome.bind_eq_ok.mp h2
  cases h4
  exact ⟨h1, h3⟩

/-- An evaluation that gives forces writes the fields, if the stresses of the points can be computed. -/
theorem written_defined {B : Body} {D : Decompose} {order : Nat} {U N : Update} (hN : ∀ dt A s, ∃ s', N dt A s = .ok s')
    {dt : ℝ} {H : Harm} {u y v : Nat → V3} {g : Ghosts} {s : State} (o : Shown) {nbs : List (List Nat)} {r : Result}
    (h : evaluation B D order U dt H u y v g s nbs.length (encode nbs) = .ok r) :
    ∃ w, evaluationWritten B D order U N dt H u y v g s o nbs.length (encode nbs) = .ok (r, w) := by
  have hp := (force_parts (evaluation_parts h).2).2
  obtain ⟨sg, hs⟩ := hN dt (nodeKin dt r.pre nbs.length o).rate o.stress
  unfold evaluationWritten written
  rw [h, Outcome.ok_bind]
  simp only
  rw [if_neg (not_not.mpr ((nodeKin_code _ _ _ _).mpr hp.regular)), hs]
  exact ⟨_, rfl⟩

/-! ### Gradients -/

/-- Weights that are current for the same damage give the same gradients. -/
theorem gradOf_sound {B : Body} {D : Decompose} {order : Nat} {d : Nat → ℝ} {nbs : List (List Nat)} {w w' : Weights}
    (h : Sound B D order d nbs w) (h' : Sound B D order d nbs w') (z : Nat → V3) (p : Nat) :
    gradOf B w.phi z (bondsOf nbs) p = gradOf B w'.phi z (bondsOf nbs) p := by
  unfold gradOf
  congr 1
  refine List.map_congr_left fun b hb => ?_
  have hb := (List.mem_filter.mp hb).1
  rw [(sound_omega h hb).2, (sound_omega h' hb).2]

theorem gradOf_smul (B : Body) (phi : Nat → V3) (c : ℝ) (z : Nat → V3) (bonds : List Bond) (p : Nat) :
    gradOf B phi (fun k => c • z k) bonds p = c • gradOf B phi z bonds p := by
  unfold gradOf
  rw [List.smul_sum, List.map_map]
  congr 1
  refine List.map_congr_left fun b _ => ?_
  ext i j
  simp [vecMulVec_apply]
  ring

theorem gradOf_zero (B : Body) (phi : Nat → V3) (bonds : List Bond) (p : Nat) : gradOf B phi (fun _ => 0) bonds p = 0 := by
  unfold gradOf
  rw [List.sum_eq_zero]
  intro m hm
  obtain ⟨b, _, rfl⟩ := List.mem_map.1 hm
  simp

theorem unharmed_reported {nbs : List (List Nat)} {H : Harm} (h : H.bondDamage = fun _ => 0) : Reported nbs (fun _ => 0) H :=
  fun _ _ _ _ _ _ hne => absurd (by rw [h]) hne

/-- The gradients in an evaluation without damage. -/
theorem pre_gradOf {B : Body} {D : Decompose} {order : Nat} {U : Update} {dt : ℝ} {H : Harm} {u y v : Nat → V3} {g : Ghosts}
    {s : State} {nbs : List (List Nat)} {r : Result} (h : evaluation B D order U dt H u y v g s nbs.length (encode nbs) = .ok r)
    {p : Nat} (hp : p < nbs.length) :
    (r.pre.grad p).toMatrix = 1 + gradOf B r.pre.weights.phi u (bondsOf nbs) p ∧
    (r.pre.gradDot p).toMatrix = gradOf B r.pre.weights.phi v (bondsOf nbs) p := by
  obtain ⟨-, h1, h2⟩ := precompute_parts (evaluation_parts h).1
  rw [h1, h2, if_pos hp, if_pos hp, gradientAt_gradOf, gradientAt_gradOf, toMatrix_identity, toMatrix_zero, zero_add]
  exact ⟨rfl, rfl⟩

/-- What is known of a state of explicit time integration. -/
theorem explicit_invariant {B : Body} {D : Decompose} {order : Nat} {U N : Update} {ghost : Nat → ℝ} {nbs : List (List Nat)}
    {u : Nat → V3} {hist : List (Nat → M9)} {s : State} {o : Shown} (h : Explicit B D order U N ghost nbs u hist s o) :
    Sound B D order (fun _ => 0) nbs s.weights ∧ ∀ p < nbs.length, ∃ l,
      hist.map (fun F => (F p).toMatrix) ++ [1] = (1 + gradOf B s.weights.phi u (bondsOf nbs) p) :: l ∧
      (o.strain p).toMatrix = green (1 + gradOf B s.weights.phi u (bondsOf nbs) p) +
        jumps (hist.map (fun F => (F p).toMatrix) ++ [1]) := by
  induction h with
  | start h =>
    refine ⟨sound_start h, fun p _ => ⟨[], ?_, ?_⟩⟩
    · rw [gradOf_zero]; simp
    · rw [gradOf_zero]
      show zero.toMatrix = _
      rw [toMatrix_zero]
      simp [green, jumps]
  | again _ hH h ih =>
    have h1 := (evaluationWritten_parts h).1
    have hs := sound_step (unharmed_reported hH) ih.1 h1
    rw [hH] at hs
    refine ⟨hs, fun p hp => ?_⟩
    obtain ⟨l, e1, e2⟩ := ih.2 p hp
    rw [gradOf_sound ih.1 hs] at e1 e2
    exact ⟨l, e1, e2⟩
  | @step u hist s o dt H u' y v g r w _ hH hu hy h ih =>
    obtain ⟨h1, h2⟩ := evaluationWritten_parts h
    have hs := sound_step (unharmed_reported hH) ih.1 h1
    rw [hH] at hs
    refine ⟨hs, fun p hp => ?_⟩
    obtain ⟨l, e1, e2⟩ := ih.2 p hp
    rw [gradOf_sound ih.1 hs] at e1 e2
    obtain ⟨g1, g2⟩ := pre_gradOf h1 hp
    have hu' : u' = u + fun k => dt • v k := funext fun k => hu k
    have hG : gradOf B r.pre.weights.phi u' (bondsOf nbs) p =
        gradOf B r.pre.weights.phi u (bondsOf nbs) p + dt • gradOf B r.pre.weights.phi v (bondsOf nbs) p := by
      rw [hu', gradOf_add, gradOf_smul]
    have hw := (written_parts h2).strain
    refine ⟨hist.map (fun F => (F p).toMatrix) ++ [1], ?_, ?_⟩
    · exact congrArg (fun x => x :: (hist.map (fun F => (F p).toMatrix) ++ [1])) g1
    · show (w.kept.strain p).toMatrix = green (1 + gradOf B r.pre.weights.phi u' (bondsOf nbs) p) +
        jumps ((r.pre.grad p).toMatrix :: (hist.map (fun F => (F p).toMatrix) ++ [1]))
      rw [hw, updateStrain_at _ _ hp, toMatrix_strainStep, e2, g1, g2, hG, e1]
      generalize gradOf B r.pre.weights.phi u (bondsOf nbs) p = X
      generalize gradOf B r.pre.weights.phi v (bondsOf nbs) p = Y
      rw [jumps]
      have hd : 1 + (X + dt • Y) - (1 + X) = dt • Y := by abel
      rw [hd]
      unfold green
      simp only [transpose_add, transpose_one, transpose_smul, Matrix.add_mul, Matrix.mul_add, Matrix.one_mul, Matrix.mul_one,
        smul_mul_assoc, mul_smul_comm, smul_add, smul_sub, smul_smul]
      generalize jumps _ = J
      generalize Yᵀ * Y = a
      generalize Xᵀ * X = b
      generalize Yᵀ * X = c
      generalize Xᵀ * Y = d
      generalize Yᵀ = e
      generalize Xᵀ = f
      ext i j
      simp only [Matrix.add_apply, Matrix.sub_apply, Matrix.smul_apply, smul_eq_mul]
      ring

end Verif.Assoc
