import Verif.Assoc.ForceLemmas
import Verif.Diffusion.Lemmas

/-!
# Bond-associated correspondence material: lemmas on the balance of work and moments
-/

noncomputable section

namespace Verif.Assoc

open Verif Verif.Neigh Verif.Mech Verif.Tensor Matrix
open Verif.Correspondence (bondsAt addOuter identity mem_bondsAt foldl_addOuter sum_map_linear)
open scoped Classical

theorem partition {W : Type} [AddCommGroup W] (l : List Bond) (n : Nat) (hl : ∀ b ∈ l, b.i < n) (f : Bond → W) :
    ∑ p ∈ Finset.range n, ((bondsAt l p).map f).sum = (l.map f).sum := by
  unfold bondsAt
  induction l with
  | nil => simp
  | cons b l ih =>
    rw [List.map_cons, List.sum_cons, ← ih fun b' hb' => hl b' (List.mem_cons_of_mem _ hb')]
    have e : ∀ p, (((b :: l).filter fun b => b.i = p).map f).sum =
        (if b.i = p then f b else 0) + ((l.filter fun b => b.i = p).map f).sum := by
      intro p
      by_cases h : b.i = p
      · rw [List.filter_cons_of_pos (by simpa using h), if_pos h, List.map_cons, List.sum_cons]
      · rw [List.filter_cons_of_neg (by simpa using h), if_neg h, zero_add]
    simp only [e, Finset.sum_add_distrib]
    rw [Finset.sum_ite_eq, if_pos (Finset.mem_range.mpr (hl b List.mem_cons_self))]

/-- A quantity that changes sign from one copy of a bond to the other adds up to zero. -/
theorem pair_sum {nbs : List (List Nat)} (hm : Verif.Diffusion.Mutual nbs) (hw : Within nbs nbs.length) (f : Bond → ℝ)
    (hf : ∀ b ∈ bondsOf nbs, ∀ b' ∈ bondsOf nbs, b'.i = b.j → b'.j = b.i → f b' = - f b) :
    ((bondsOf nbs).map f).sum = 0 := by
  have hpartner : ∀ b ∈ bondsOf nbs, ∃ b' ∈ bondsOf nbs, b'.i = b.j ∧ b'.j = b.i := by
    intro b hb
    obtain ⟨ns, h1, h2⟩ := mem_bondsOf hb
    have hc : 0 < (nbs.getD b.i []).count b.j := by
      rw [List.getD_eq_getElem?_getD, h1, Option.getD_some]
      exact List.count_pos_iff.mpr h2
    rw [hm b.i b.j] at hc
    have hmem := List.count_pos_iff.mp hc
    rw [List.getD_eq_getElem?_getD] at hmem
    cases h3 : nbs[b.j]? with
    | none => rw [h3] at hmem; cases hmem
    | some ms =>
      rw [h3, Option.getD_some] at hmem
      exact bond_of_has ⟨ms, h3, hmem⟩
  let g : Nat → Nat → ℝ := fun p q =>
    if h : ∃ b ∈ bondsOf nbs, b.i = p ∧ b.j = q then f h.choose else 0
  have hg : ∀ b ∈ bondsOf nbs, f b = g b.i b.j := by
    intro b hb
    have hex : ∃ c ∈ bondsOf nbs, c.i = b.i ∧ c.j = b.j := ⟨b, hb, rfl, rfl⟩
    obtain ⟨b', hb', h1, h2⟩ := hpartner b hb
    have e1 := hf b hb b' hb' h1 h2
    have e2 := hf hex.choose hex.choose_spec.1 b' hb' (by rw [h1, hex.choose_spec.2.2])
      (by rw [h2, hex.choose_spec.2.1])
    simp only [g, dif_pos hex]
    linarith
  have hanti : ∀ p q, g p q = - g q p := by
    intro p q
    by_cases h : ∃ b ∈ bondsOf nbs, b.i = p ∧ b.j = q
    · obtain ⟨b, hb, rfl, rfl⟩ := h
      obtain ⟨b', hb', h1, h2⟩ := hpartner b hb
      rw [← hg b hb, ← h1, ← h2, ← hg b' hb', hf b hb b' hb' h1 h2, neg_neg]
    · have h' : ¬ ∃ b ∈ bondsOf nbs, b.i = q ∧ b.j = p := by
        rintro ⟨b, hb, rfl, rfl⟩
        obtain ⟨b', hb', h1, h2⟩ := hpartner b hb
        exact h ⟨b', hb', h1, h2⟩
      simp only [g, dif_neg h, dif_neg h', neg_zero]
  have hbi : ∀ b ∈ bondsOf nbs, b.i < nbs.length := fun b hb => (bonds_within hw b hb).1
  rw [List.map_congr_left hg, ← partition _ _ hbi, ← Verif.Diffusion.mutual_sum hm hw g hanti]
  refine Finset.sum_congr rfl fun p hp => ?_
  have hlt := Finset.mem_range.mp hp
  have h1 : nbs[p]? = some (nbs.getD p []) := by
    rw [List.getD_eq_getElem?_getD, List.getElem?_eq_getElem hlt, Option.getD_some]
  exact Verif.Diffusion.bondsAt_sum h1 g

theorem pair_sum_matrix {nbs : List (List Nat)} (hm : Verif.Diffusion.Mutual nbs) (hw : Within nbs nbs.length)
    (f : Bond → Matrix (Fin 3) (Fin 3) ℝ)
    (hf : ∀ b ∈ bondsOf nbs, ∀ b' ∈ bondsOf nbs, b'.i = b.j → b'.j = b.i → f b' = - f b) :
    ((bondsOf nbs).map f).sum = 0 := by
  ext i j
  have := sum_map_linear (Matrix.entryLinearMap ℝ ℝ i j) f (bondsOf nbs)
  simp only [Matrix.entryLinearMap_apply] at this
  rw [this, Matrix.zero_apply]
  exact pair_sum hm hw _ fun b hb b' hb' h1 h2 => by rw [hf b hb b' hb' h1 h2]; rfl

theorem list_neg {W : Type} [AddCommGroup W] (l : List Bond) (f : Bond → W) :
    - (l.map f).sum = (l.map fun b => - f b).sum := by
  induction l with
  | nil => simp
  | cons b l ih => rw [List.map_cons, List.sum_cons, List.map_cons, List.sum_cons, neg_add, ih]

theorem list_sub {W : Type} [AddCommGroup W] (l : List Bond) (f g : Bond → W) :
    (l.map f).sum - (l.map g).sum = (l.map fun b => f b - g b).sum := by
  rw [sub_eq_add_neg, list_neg, ← List.sum_map_add]
  simp only [sub_eq_add_neg]

/-! ### The work of the forces -/

/-- `∑ V_j (z_j - z_i) ⊗ φ` over the bonds of a point. -/
def gradOf (B : Body) (phi : Nat → V3) (z : Nat → V3) (bonds : List Bond) (p : Nat) : Matrix (Fin 3) (Fin 3) ℝ :=
  ((bondsAt bonds p).map fun b => B.volume b.j • vecMulVec (z b.j - z b.i) (phi b.b)).sum

/-- The gradient of `z` at a bond from gradients at its ends. -/
def bondOf (B : Body) (G : Nat → Matrix (Fin 3) (Fin 3) ℝ) (z : Nat → V3) (b : Bond) : Matrix (Fin 3) (Fin 3) ℝ :=
  (1 / 2 : ℝ) • (G b.i + G b.j) + (1 / lenSq (xi B b)) •
    vecMulVec (z b.j - z b.i - ((1 / 2 : ℝ) • (G b.i + G b.j)) *ᵥ xi B b) (xi B b)

theorem vecMulVec_mulVec (a v : V3) (A : Matrix (Fin 3) (Fin 3) ℝ) :
    vecMulVec a (A *ᵥ v) = vecMulVec a v * Aᵀ := by
  ext i j
  rw [vecMulVec_apply, Matrix.mul_apply]
  simp only [mulVec, dotProduct, vecMulVec_apply, transpose_apply, Finset.mul_sum]
  exact Finset.sum_congr rfl fun k _ => by ring

theorem mulVec_vecMulVec (a v : V3) (A : Matrix (Fin 3) (Fin 3) ℝ) :
    vecMulVec (A *ᵥ a) v = A * vecMulVec a v := by
  ext i j
  rw [vecMulVec_apply, Matrix.mul_apply]
  simp only [mulVec, dotProduct, vecMulVec_apply, Finset.sum_mul]
  exact Finset.sum_congr rfl fun k _ => by ring

/-- `vecMulVec a` as a linear map. -/
def outerWith (a : V3) : V3 →ₗ[ℝ] Matrix (Fin 3) (Fin 3) ℝ where
  toFun f := vecMulVec a f
  map_add' f g := by ext i j; simp [vecMulVec_apply, mul_add]
  map_smul' c f := by ext i j; simp [vecMulVec_apply]; ring

theorem xi_swap {B : Body} {b b' : Bond} (h1 : b'.i = b.j) (h2 : b'.j = b.i) : xi B b' = - xi B b := by
  unfold xi
  rw [h1, h2, neg_sub]

theorem lenSq_neg (d : V3) : lenSq (-d) = lenSq d := by
  simp [lenSq]

theorem neg_outer (a b : V3) : vecMulVec (-a) (-b) = vecMulVec a b := by
  ext i j
  simp [vecMulVec_apply]

theorem transverse_neg (d : V3) : (transverse (-d)).toMatrix = (transverse d).toMatrix := by
  rw [toMatrix_transverse, toMatrix_transverse, lenSq_neg, neg_outer]

theorem bondOf_eq (B : Body) (G : Nat → Matrix (Fin 3) (Fin 3) ℝ) (z : Nat → V3) (b : Bond) :
    bondOf B G z b = ((1 / 2 : ℝ) • (G b.i + G b.j)) * (transverse (xi B b)).toMatrix +
      (1 / lenSq (xi B b)) • vecMulVec (z b.j - z b.i) (xi B b) := by
  rw [bondOf, toMatrix_transverse, sub_vecMulVec, mulVec_vecMulVec]
  generalize (1 / 2 : ℝ) • (G b.i + G b.j) = m
  rw [Matrix.mul_sub, Matrix.mul_one, Matrix.mul_smul, smul_sub]
  abel

/-- **The work identity** for the forces of given stresses. -/
theorem work_of {B : Body} {w0 : Nat → ℝ} {w : Weights} {piola S : Nat → M9} {f : Nat → V3} {nbs : List (List Nat)}
    (hi : stressIntegral B w0 w.omega piola nbs.length (bondsOf nbs) = .ok S)
    (hf : scatter (fun b => B.volume b.i) (fun b => B.volume b.j) (forceBond B w0 w piola S) (bondsOf nbs) 0 = .ok f)
    (hm : Verif.Diffusion.Mutual nbs) (hw : Within nbs nbs.length)
    (ho : ∀ b ∈ bondsOf nbs, 0 ≤ w.omega b.b)
    (hphi : ∀ b ∈ bondsOf nbs, w.omega b.b = 0 → w.phi b.b = 0)
    (hpo : ∀ b ∈ bondsOf nbs, ∀ b' ∈ bondsOf nbs, b'.i = b.j → b'.j = b.i → w.omega b'.b = w.omega b.b)
    (hpp : ∀ b ∈ bondsOf nbs, ∀ b' ∈ bondsOf nbs, b'.i = b.j → b'.j = b.i → 0 < w.omega b.b →
      piola b'.b = piola b.b)
    (z : Nat → V3) :
    ∑ k ∈ Finset.range nbs.length, B.volume k • vecMulVec (z k) (f k) =
      - ((bondsOf nbs).map fun b => bondMeasure B w0 w.omega b •
        (bondOf B (gradOf B w.phi z (bondsOf nbs)) z b * (piola b.b).toMatrixᵀ)).sum := by
  set bonds := bondsOf nbs with hbonds
  set G := gradOf B w.phi z bonds with hG
  have hbw := bonds_within hw
  have hsc : Scattered (fun b => B.volume b.i) (fun b => B.volume b.j)
      (fun b g => g = pairForce B w0 w piola S b) bonds 0 f :=
    (scatter_scattered hf).mono fun b _ g hg => (forceBond_ok hg).1
  have h1 := scattered_sum nbs.length (fun k => B.volume k • outerWith (z k)) hsc hbw
  have hL : ∀ k f, (B.volume k • outerWith (z k)) f = B.volume k • vecMulVec (z k) f := fun k f => rfl
  simp only [hL] at h1
  rw [h1]
  -- the force of a bond, without cases
  have hT : ∀ b ∈ bonds, pairForce B w0 w piola S b =
      (w.omega b.b / w0 b.i / lenSq (xi B b)) • ((piola b.b).toMatrix *ᵥ xi B b) +
        (S b.i).toMatrix *ᵥ w.phi b.b := by
    intro b hb
    unfold pairForce
    split
    · rfl
    · next hn =>
      have h0 : w.omega b.b = 0 := le_antisymm (not_lt.mp hn) (ho b hb)
      rw [h0, hphi b hb h0]
      simp
  have hS : ∀ p < nbs.length, (S p).toMatrix = ((bondsAt bonds p).map fun b =>
      (w.omega b.b * half w0 b * B.volume b.j) • ((piola b.b).toMatrix * (transverse (xi B b)).toMatrix)).sum := by
    intro p hp
    rw [((integral_points _ hi p).1 (List.mem_range.mpr hp)).1]
    congr 1
    refine List.map_congr_left fun b hb => ?_
    unfold share
    split
    · rfl
    · next hn =>
      have h0 : w.omega b.b = 0 := le_antisymm (not_lt.mp hn) (ho b (List.mem_filter.mp hb).1)
      rw [h0]
      simp
  have h2 : (bonds.map fun b => B.volume b.j • B.volume b.i • vecMulVec (z b.i) (pairForce B w0 w piola S b) -
      B.volume b.i • B.volume b.j • vecMulVec (z b.j) (pairForce B w0 w piola S b)).sum =
      - ((bonds.map fun b => (B.volume b.i * B.volume b.j * (w.omega b.b / w0 b.i / lenSq (xi B b))) •
          (vecMulVec (z b.j - z b.i) (xi B b) * (piola b.b).toMatrixᵀ)).sum +
        (bonds.map fun b => B.volume b.i • ((B.volume b.j • vecMulVec (z b.j - z b.i) (w.phi b.b)) *
          (S b.i).toMatrixᵀ)).sum) := by
    rw [← List.sum_map_add, list_neg]
    congr 1
    refine List.map_congr_left fun b hb => ?_
    rw [hT b hb, sub_vecMulVec, sub_vecMulVec]
    have e : ∀ a : V3, vecMulVec a ((w.omega b.b / w0 b.i / lenSq (xi B b)) • ((piola b.b).toMatrix *ᵥ xi B b) +
        (S b.i).toMatrix *ᵥ w.phi b.b) = (w.omega b.b / w0 b.i / lenSq (xi B b)) •
          (vecMulVec a (xi B b) * (piola b.b).toMatrixᵀ) + vecMulVec a (w.phi b.b) * (S b.i).toMatrixᵀ := by
      intro a
      rw [← vecMulVec_mulVec, ← vecMulVec_mulVec]
      exact ((outerWith a).map_add _ _).trans (by rw [map_smul]; rfl)
    rw [e, e]
    simp only [Matrix.sub_mul, smul_mul_assoc, smul_sub]
    module
  have h3 : (bonds.map fun b => B.volume b.i • ((B.volume b.j • vecMulVec (z b.j - z b.i) (w.phi b.b)) *
          (S b.i).toMatrixᵀ)).sum =
      (bonds.map fun b => (B.volume b.i * B.volume b.j * w.omega b.b * half w0 b) •
        (G b.i * ((transverse (xi B b)).toMatrix * (piola b.b).toMatrixᵀ))).sum := by
    rw [← partition _ nbs.length fun b hb => (hbw b hb).1, ← partition _ nbs.length fun b hb => (hbw b hb).1]
    refine Finset.sum_congr rfl fun p hp => ?_
    have hlt := Finset.mem_range.mp hp
    let L1 : Matrix (Fin 3) (Fin 3) ℝ →ₗ[ℝ] Matrix (Fin 3) (Fin 3) ℝ :=
      B.volume p • LinearMap.mulRight ℝ (S p).toMatrixᵀ
    let L2 : Matrix (Fin 3) (Fin 3) ℝ →ₗ[ℝ] Matrix (Fin 3) (Fin 3) ℝ :=
      (B.volume p • LinearMap.mulLeft ℝ (G p)) ∘ₗ (Matrix.transposeLinearEquiv (Fin 3) (Fin 3) ℝ ℝ).toLinearMap
    have e1 : ((bondsAt bonds p).map fun b => B.volume b.i • ((B.volume b.j • vecMulVec (z b.j - z b.i) (w.phi b.b)) *
          (S b.i).toMatrixᵀ)).sum = L1 (G p) := by
      rw [hG, gradOf, sum_map_linear]
      congr 1
      refine List.map_congr_left fun b hb => ?_
      rw [(mem_bondsAt hb).1]
      rfl
    have e2 : ((bondsAt bonds p).map fun b => (B.volume b.i * B.volume b.j * w.omega b.b * half w0 b) •
        (G b.i * ((transverse (xi B b)).toMatrix * (piola b.b).toMatrixᵀ))).sum = L2 (S p).toMatrix := by
      rw [hS p hlt, sum_map_linear]
      congr 1
      refine List.map_congr_left fun b hb => ?_
      rw [(mem_bondsAt hb).1]
      show _ = B.volume p • (G p * ((w.omega b.b * half w0 b * B.volume b.j) •
        ((piola b.b).toMatrix * (transverse (xi B b)).toMatrix))ᵀ)
      rw [transpose_smul, transpose_mul, transverse_symm, Matrix.mul_smul, smul_smul]
      congr 1
      ring
    rw [e1, e2]
    rfl
  rw [h2, h3, ← List.sum_map_add, neg_inj]
  rw [← sub_eq_zero, list_sub]
  refine pair_sum_matrix hm hw _ fun b hb b' hb' e1 e2 => ?_
  rw [bondOf_eq, bondOf_eq, xi_swap e1 e2, transverse_neg, lenSq_neg, e1, e2, hpo b hb b' hb' e1 e2]
  by_cases hz : w.omega b.b = 0
  · rw [bondMeasure, bondMeasure, hpo b hb b' hb' e1 e2, hz]
    simp
  rw [hpp b hb b' hb' e1 e2 (lt_of_le_of_ne (ho b hb) (Ne.symm hz)), ← neg_sub (z b.j) (z b.i), neg_outer, bondMeasure,
    bondMeasure, hpo b hb b' hb' e1 e2, half, half, e1, e2]
  simp only [Matrix.add_mul, smul_mul_assoc, Matrix.mul_assoc]
  generalize (transverse (xi B b)).toMatrix * (piola b.b).toMatrixᵀ = Q
  generalize vecMulVec (z b.j - z b.i) (xi B b) * (piola b.b).toMatrixᵀ = X
  generalize G b.i * Q = A1
  generalize G b.j * Q = A2
  generalize lenSq (xi B b) = L
  match_scalars <;> ring

/-- The work identity for an evaluation. -/
theorem work {B : Body} {U : Update} {dt : ℝ} {y v : Nat → V3} {s : State} {nbs : List (List Nat)} {r : Result}
    (hr : Parts B U dt y v s nbs.length (bondsOf nbs) r) (hm : Verif.Diffusion.Mutual nbs) (hw : Within nbs nbs.length)
    (ho : ∀ b ∈ bondsOf nbs, 0 ≤ r.pre.weights.omega b.b)
    (hphi : ∀ b ∈ bondsOf nbs, r.pre.weights.omega b.b = 0 → r.pre.weights.phi b.b = 0)
    (hpo : ∀ b ∈ bondsOf nbs, ∀ b' ∈ bondsOf nbs, b'.i = b.j → b'.j = b.i →
      r.pre.weights.omega b'.b = r.pre.weights.omega b.b)
    (hpp : ∀ b ∈ bondsOf nbs, ∀ b' ∈ bondsOf nbs, b'.i = b.j → b'.j = b.i → 0 < r.pre.weights.omega b.b →
      r.piola b'.b = r.piola b.b)
    (z : Nat → V3) :
    ∑ k ∈ Finset.range nbs.length, B.volume k • vecMulVec (z k) (r.force k) =
      - ((bondsOf nbs).map fun b => bondMeasure B s.w0 r.pre.weights.omega b •
        (bondOf B (gradOf B r.pre.weights.phi z (bondsOf nbs)) z b * (r.piola b.b).toMatrixᵀ)).sum := by
  exact work_of hr.integral hr.force hm hw ho hphi hpo hpp z

end Verif.Assoc
