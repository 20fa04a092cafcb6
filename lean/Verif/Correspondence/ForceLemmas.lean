import Verif.Correspondence.Defined

/-!
# Correspondence materials: helper lemmas on forces
-/

noncomputable section

namespace Verif.Correspondence

open Verif Verif.Neigh Verif.Mech Verif.Tensor Matrix
open scoped Classical

/-- One pair force changes a linear functional of the forces. -/
theorem sum_step {W : Type} [AddCommGroup W] [Module ℝ W] (vi vj : Bond → ℝ) (F : Nat → V3) (b : Bond)
    (g : V3) (N : Nat) (L : Nat → V3 →ₗ[ℝ] W) (hb : b.i < N ∧ b.j < N) :
    ∑ k ∈ Finset.range N, L k (scatterStep vi vj F b g k) =
      ∑ k ∈ Finset.range N, L k (F k) + (vj b • L b.i g - vi b • L b.j g) := by
  have e : ∀ k, L k (scatterStep vi vj F b g k) = L k (F k) +
      ((if b.i = k then vj b • L b.i g else 0) - (if b.j = k then vi b • L b.j g else 0)) := by
    intro k
    rw [scatterStep_apply, map_add]
    congr 1
    unfold pull
    rw [map_sub]
    congr 1
    · split
      · next h => subst h; rw [map_smul]
      · rw [map_zero]
    · split
      · next h => subst h; rw [map_smul]
      · rw [map_zero]
  simp only [e, Finset.sum_add_distrib, Finset.sum_sub_distrib, Finset.sum_ite_eq, Finset.mem_range,
    hb.1, hb.2, if_true]

theorem sum_bonds {W : Type} [AddCommGroup W] [Module ℝ W] (B : Body) (t : M9) (bs : List Bond)
    (s : Forces) (N : Nat) (L : Nat → V3 →ₗ[ℝ] W) (hb : ∀ b ∈ bs, b.i < N ∧ b.j < N) :
    ∑ k ∈ Finset.range N, L k ((bs.foldl (forceBond B t) s).force k) =
      ∑ k ∈ Finset.range N, L k (s.force k) + (bs.map fun b =>
        B.volume b.j • L b.i (bondForce B t b) - B.volume b.i • L b.j (bondForce B t b)).sum := by
  induction bs generalizing s with
  | nil => simp
  | cons b bs ih =>
    rw [List.foldl_cons, ih _ fun c hc => hb c (List.mem_cons_of_mem _ hc), List.map_cons,
      List.sum_cons, ← add_assoc]
    congr 1
    exact sum_step (fun b => B.volume b.i) (fun b => B.volume b.j) s.force b (bondForce B t b) N L
      (hb b List.mem_cons_self)

/-- The matrix whose product with a bond gives the pair force. -/
def stateOf (k : Shape) (sigma : Nat → M9) (p : Nat) : M9 :=
  matrixMultiply false false 1 (piola (k.grad p) (sigma p)) (k.inv p)

/-- A linear functional to which the bonds of each point contribute nothing in sum. -/
theorem sum_points {W : Type} [AddCommGroup W] [Module ℝ W] (B : Body) (bonds : List Bond) (k : Shape)
    (sigma : Nat → M9) (ps : List Nat) (s f : Forces) (N : Nat) (L : Nat → V3 →ₗ[ℝ] W)
    (hN : ∀ b ∈ bonds, b.i < N ∧ b.j < N)
    (hz : ∀ p ∈ ps, ((bondsAt bonds p).map fun b =>
      B.volume b.j • L b.i (bondForce B (stateOf k sigma p) b) -
        B.volume b.i • L b.j (bondForce B (stateOf k sigma p) b)).sum = 0)
    (h : ps.foldlM (forcePoint B bonds k sigma) s = .ok f) :
    ∑ k ∈ Finset.range N, L k (f.force k) = ∑ k ∈ Finset.range N, L k (s.force k) := by
  induction ps generalizing s with
  | nil => cases h; rfl
  | cons p ps ih =>
    obtain ⟨s', h1, h2⟩ := BC.foldlM_cons_ok.mp h
    rw [ih s' (fun q hq => hz q (List.mem_cons_of_mem _ hq)) h2]
    unfold forcePoint at h1
    split at h1
    · exact absurd h1 (by simp)
    · cases h1
      have e := sum_bonds B (stateOf k sigma p) (bondsAt bonds p) s N L
        fun b hb => hN b (List.mem_filter.mp hb).1
      rw [hz p List.mem_cons_self, add_zero] at e
      exact e

theorem toMatrix_addPartial (t : M9) (T x : V3) (v : ℝ) :
    (addPartial t T x v).toMatrix = t.toMatrix + v • vecMulVec T x := by
  ext i j
  rw [Matrix.add_apply, Matrix.smul_apply, vecMulVec_apply, smul_eq_mul, mul_comm v]
  fin_cases i <;> fin_cases j <;> rfl

theorem bondForce_eq (B : Body) (t : M9) (b : Bond) :
    bondForce B t b = B.omegaForce (len (xi B b)) (B.horizon b.i) • (t.toMatrix *ᵥ xi B b) := by
  funext c
  fin_cases c <;> simp [bondForce, M9.toMatrix, dotProduct, Fin.sum_univ_three, vec_two]

theorem partial_bonds (B : Body) (t : M9) (bs : List Bond) (s : Forces) (p : Nat) :
    ((bs.foldl (forceBond B t) s).partialStress p).toMatrix = (s.partialStress p).toMatrix +
      ((bondsAt bs p).map fun b => B.volume b.j • vecMulVec (bondForce B t b) (xi B b)).sum := by
  induction bs generalizing s with
  | nil => simp [bondsAt]
  | cons b bs ih =>
    rw [List.foldl_cons, ih]
    unfold bondsAt forceBond
    by_cases h : b.i = p
    · subst h
      rw [List.filter_cons_of_pos (by simp), List.map_cons, List.sum_cons, ← add_assoc]
      congr 1
      simp only [Function.update_self]
      rw [toMatrix_addPartial]
    · rw [List.filter_cons_of_neg (by simpa using h)]
      congr 2
      exact Function.update_of_ne (Ne.symm h) _ _

theorem partial_points (B : Body) (bonds : List Bond) (k : Shape) (sigma : Nat → M9) (ps : List Nat)
    (hps : ps.Nodup) (s f : Forces) (h : ps.foldlM (forcePoint B bonds k sigma) s = .ok f) (p : Nat) :
    (f.partialStress p).toMatrix = (s.partialStress p).toMatrix + if p ∈ ps then
      ((bondsAt bonds p).map fun b => B.volume b.j •
        vecMulVec (bondForce B (stateOf k sigma p) b) (xi B b)).sum else 0 := by
  induction ps generalizing s with
  | nil => cases h; simp
  | cons q ps ih =>
    obtain ⟨s', h1, h2⟩ := BC.foldlM_cons_ok.mp h
    obtain ⟨hq, hps⟩ := List.nodup_cons.mp hps
    rw [ih hps s' h2]
    unfold forcePoint at h1
    split at h1
    · exact absurd h1 (by simp)
    · cases h1
      have e := partial_bonds B (stateOf k sigma q) (bondsAt bonds q) s p
      unfold stateOf at e ⊢
      rw [e]
      by_cases hpq : p = q
      · subst hpq
        rw [if_neg hq, if_pos List.mem_cons_self, add_zero]
        have : bondsAt (bondsAt bonds p) p = bondsAt bonds p := by
          unfold bondsAt
          rw [List.filter_filter]
          simp
        rw [this]
      · have : bondsAt (bondsAt bonds q) p = [] := by
          unfold bondsAt
          rw [List.filter_filter, List.filter_eq_nil_iff]
          intro b _ hb
          simp only [Bool.and_eq_true, decide_eq_true_eq] at hb
          exact hpq (hb.1.symm.trans hb.2)
        rw [this]
        simp [hpq]

/-! ### Cross products -/

/-- Twice the axial vector of a matrix. -/
def twist : Mat →ₗ[ℝ] V3 where
  toFun m := ![m 1 2 - m 2 1, m 2 0 - m 0 2, m 0 1 - m 1 0]
  map_add' a b := by
    funext c; fin_cases c <;> simp [vec_two] <;> ring
  map_smul' a b := by
    funext c; fin_cases c <;> simp [vec_two] <;> ring

theorem twist_outer (a b : V3) : twist (vecMulVec a b) = crossProduct a b := by
  funext c
  fin_cases c <;> simp [twist, crossProduct, vecMulVec_apply, vec_two]

theorem twist_symm (m : Mat) (h : mᵀ = m) : twist m = 0 := by
  have e : ∀ i j, m i j = m j i := fun i j => (congrFun (congrFun h j) i)
  funext c
  fin_cases c <;> simp [twist, vec_two]
  · rw [e 1 2]; ring
  · rw [e 2 0]; ring
  · rw [e 0 1]; ring

theorem sum_map_linear {α V W : Type} [AddCommGroup V] [Module ℝ V] [AddCommGroup W] [Module ℝ W]
    (L : V →ₗ[ℝ] W) (f : α → V) (l : List α) : L (l.map f).sum = (l.map fun a => L (f a)).sum := by
  rw [map_list_sum, List.map_map]
  rfl

/-- The shape tensor is symmetric, and so is its inverse. -/
theorem shape_symm (B : Body) (bs : List Bond) :
    (shapeTensor B bs).toMatrixᵀ = (shapeTensor B bs).toMatrix := by
  rw [shapeTensor_eq]
  have e := sum_map_linear (transposeLinearEquiv (Fin 3) (Fin 3) ℝ ℝ).toLinearMap
    (fun b => weight B b • vecMulVec (xi B b) (xi B b)) bs
  refine e.trans ?_
  congr 1
  refine List.map_congr_left fun b _ => ?_
  show (weight B b • vecMulVec (xi B b) (xi B b))ᵀ = _
  rw [transpose_smul, transpose_vecMulVec]

/-- The sum of the outer products of vectors with pair forces. -/
theorem outer_sum (B : Body) (hB : B.omegaForce = B.omega) (a : Bond → V3) (t : M9) (bs : List Bond) :
    (bs.map fun b => B.volume b.j • vecMulVec (a b) (bondForce B t b)).sum =
      (bs.map fun b => weight B b • vecMulVec (a b) (xi B b)).sum * t.toMatrixᵀ := by
  have e := sum_map_linear (LinearMap.mulRight ℝ t.toMatrixᵀ)
    (fun b => weight B b • vecMulVec (a b) (xi B b)) bs
  refine Eq.trans ?_ e.symm
  congr 1
  refine List.map_congr_left fun b _ => ?_
  show _ = weight B b • vecMulVec (a b) (xi B b) * t.toMatrixᵀ
  rw [bondForce_eq, hB, smul_mul_assoc, vecMulVec_mul, vecMul_transpose, vecMulVec_smul, smul_smul]
  congr 1
  unfold weight
  ring

end Verif.Correspondence
