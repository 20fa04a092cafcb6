import Verif.Assoc.WeightLemmas
import Mathlib.LinearAlgebra.Matrix.NonsingularInverse
import Mathlib.Tactic.FieldSimp
import Mathlib.Tactic.Linarith
import Mathlib.Algebra.BigOperators.Field

/-!
# Bond-associated correspondence material: exactness of the gradients
-/

noncomputable section

namespace Verif.Assoc

open Verif Verif.Neigh Verif.Mech Verif.Tensor MvPolynomial Matrix
open Verif.Correspondence (bondsAt addOuter identity mem_bondsAt foldl_addOuter)
open scoped Classical

theorem foldl_sum {q : Nat} (f : Fin q → ℝ) :
    (List.finRange q).foldl (fun t k => t + f k) 0 = ∑ k, f k := by
  have key : ∀ (l : List (Fin q)) (a : ℝ), l.foldl (fun t k => t + f k) a = a + (l.map f).sum := by
    intro l
    induction l with
    | nil => intro a; simp
    | cons x l ih => intro a; rw [List.foldl_cons, ih, List.map_cons, List.sum_cons, add_assoc]
  rw [key, zero_add, Fin.sum_univ_def]

theorem invertAndCond_eq {q : Nat} (D : Decompose) (M : Matrix (Fin q) (Fin q) ℝ) {thres : ℝ}
    (h : ∀ k, thres < (D q M).w k) :
    (invertAndCond D M thres).2 = (D q M).v * diagonal (fun k => 1 / (D q M).w k) * (D q M).uᵀ := by
  ext i j
  simp only [invertAndCond, if_pos (h _)]
  rw [foldl_sum, Matrix.mul_apply]
  refine Finset.sum_congr rfl fun k _ => ?_
  rw [mul_diagonal, transpose_apply]
  ring

theorem pseudo_inverse {q : Nat} {D : Decompose} {M : Matrix (Fin q) (Fin q) ℝ} (hM : (D q M).IsFor M) {thres : ℝ}
    (h0 : 0 ≤ thres) (h : ∀ k, thres < (D q M).w k) : (invertAndCond D M thres).2 * M = 1 := by
  rw [invertAndCond_eq D M h]
  have hw : diagonal (fun k => 1 / (D q M).w k) * diagonal (D q M).w = 1 := by
    rw [diagonal_mul_diagonal, ← diagonal_one]
    congr 1
    funext k
    have := lt_of_le_of_lt h0 (h k)
    field_simp
  have hv : (D q M).v * (D q M).vᵀ = 1 := mul_eq_one_comm.mp hM.right
  calc (D q M).v * diagonal (fun k => 1 / (D q M).w k) * (D q M).uᵀ * M
      = (D q M).v * diagonal (fun k => 1 / (D q M).w k) * (D q M).uᵀ *
          ((D q M).u * diagonal (D q M).w * (D q M).vᵀ) := by rw [← hM.product]
    _ = (D q M).v * (diagonal (fun k => 1 / (D q M).w k) * (((D q M).uᵀ * (D q M).u) * diagonal (D q M).w)) *
          (D q M).vᵀ := by simp only [Matrix.mul_assoc]
    _ = 1 := by rw [hM.left, Matrix.one_mul, hw, Matrix.mul_one, hv]

/-- A lower bound of the quadratic form is one of the singular values. -/
theorem singular_bound {q : Nat} {s : Svd q} {M : Matrix (Fin q) (Fin q) ℝ} (hM : s.IsFor M) {c : ℝ}
    (h : ∀ a : Fin q → ℝ, c * ∑ i, a i ^ 2 ≤ ∑ i, ∑ j, a i * M i j * a j) (k : Fin q) : c ≤ s.w k := by
  have hMv : M * s.v = s.u * diagonal s.w := by
    conv_lhs => rw [hM.product]
    rw [Matrix.mul_assoc, hM.right, Matrix.mul_one]
  have hvv : ∑ i, s.v i k ^ 2 = 1 := by
    have := congrFun (congrFun hM.right k) k
    rw [Matrix.mul_apply, one_apply_eq] at this
    rw [← this]
    exact Finset.sum_congr rfl fun i _ => by rw [transpose_apply]; ring
  have huu : ∑ i, s.u i k ^ 2 = 1 := by
    have := congrFun (congrFun hM.left k) k
    rw [Matrix.mul_apply, one_apply_eq] at this
    rw [← this]
    exact Finset.sum_congr rfl fun i _ => by rw [transpose_apply]; ring
  have hq : ∑ i, ∑ j, s.v i k * M i j * s.v j k = s.w k * ∑ i, s.v i k * s.u i k := by
    rw [Finset.mul_sum]
    refine Finset.sum_congr rfl fun i _ => ?_
    have e : (M * s.v) i k = (s.u * diagonal s.w) i k := by rw [hMv]
    rw [Matrix.mul_apply, mul_diagonal] at e
    calc ∑ j, s.v i k * M i j * s.v j k = s.v i k * ∑ j, M i j * s.v j k := by
          rw [Finset.mul_sum]; exact Finset.sum_congr rfl fun j _ => by ring
      _ = s.w k * (s.v i k * s.u i k) := by rw [e]; ring
  have hvu : ∑ i, s.v i k * s.u i k ≤ 1 := by
    have : ∑ i, (s.v i k - s.u i k) ^ 2 = ∑ i, s.v i k ^ 2 + ∑ i, s.u i k ^ 2 - 2 * ∑ i, s.v i k * s.u i k := by
      rw [Finset.mul_sum, ← Finset.sum_add_distrib, ← Finset.sum_sub_distrib]
      exact Finset.sum_congr rfl fun i _ => by ring
    have hp : 0 ≤ ∑ i, (s.v i k - s.u i k) ^ 2 := Finset.sum_nonneg fun i _ => sq_nonneg _
    rw [this, hvv, huu] at hp
    linarith
  have := h fun i => s.v i k
  rw [hvv, mul_one] at this
  refine this.trans ?_
  rw [hq]
  exact (mul_le_mul_of_nonneg_left hvu (hM.nonneg k)).trans (by rw [mul_one])

/-! ### The polynomial with given coefficients -/

/-- `∑ a_k Q_k`. -/
def polyOf (order : Nat) (a : Fin (dim order) → ℝ) : Poly := ∑ k, monomial (mon (powers order)[k]) (a k)

theorem mon_powers_injective (order : Nat) : Function.Injective fun k : Fin (dim order) => mon (powers order)[k] := by
  intro a b h
  have := mon_injective h
  exact Fin.ext ((powers_nodup order).getElem_inj_iff.mp this)

theorem coeff_polyOf (order : Nat) (a : Fin (dim order) → ℝ) (k : Fin (dim order)) :
    coeff (mon (powers order)[k]) (polyOf order a) = a k := by
  unfold polyOf
  rw [coeff_sum, Finset.sum_eq_single k]
  · rw [coeff_monomial, if_pos rfl]
  · intro l _ hl
    rw [coeff_monomial, if_neg fun e => hl (mon_powers_injective order e)]
  · intro h; exact absurd (Finset.mem_univ _) h

theorem support_polyOf (order : Nat) (a : Fin (dim order) → ℝ) {m : Fin 3 →₀ ℕ} (hm : m ∈ (polyOf order a).support) :
    ∃ k : Fin (dim order), mon (powers order)[k] = m := by
  by_contra hne
  push Not at hne
  rw [mem_support_iff] at hm
  apply hm
  unfold polyOf
  rw [coeff_sum]
  exact Finset.sum_eq_zero fun k _ => by rw [coeff_monomial, if_neg (hne k)]

theorem degree_mon (t : Nat × Nat × Nat) : ((mon t).sum fun _ e => e) = t.1 + t.2.1 + t.2.2 := by
  rw [Finsupp.sum_fintype _ _ fun _ => rfl, Fin.sum_univ_three]
  rfl

theorem degree_polyOf (order : Nat) (a : Fin (dim order) → ℝ) : (polyOf order a).totalDegree ≤ order := by
  refine totalDegree_finsetSum_le fun k _ => (totalDegree_monomial_le _ _).trans ?_
  have h := degree_mon (powers order)[k]
  have h2 := (mem_powers.mp (List.getElem_mem (l := powers order) k.2)).2
  exact le_trans (le_of_eq h) h2

theorem constant_polyOf (order : Nat) (a : Fin (dim order) → ℝ) : coeff 0 (polyOf order a) = 0 := by
  by_contra hne
  obtain ⟨k, hk⟩ := support_polyOf order a (mem_support_iff.mpr hne)
  have h1 := (mem_powers.mp (List.getElem_mem (l := powers order) k.2)).1
  have h2 := degree_mon (powers order)[k]
  rw [hk] at h2
  simp only [Finsupp.sum_zero_index] at h2
  have h3 : ((powers order)[k]).1 + ((powers order)[k]).2.1 + ((powers order)[k]).2.2 =
    ((powers order)[k.val]).1 + ((powers order)[k.val]).2.1 + ((powers order)[k.val]).2.2 := rfl
  omega

theorem squares_polyOf (order : Nat) (a : Fin (dim order) → ℝ) :
    ∑ m ∈ (polyOf order a).support, coeff m (polyOf order a) ^ 2 = ∑ k, a k ^ 2 := by
  rw [Finset.sum_subset (s₂ := Finset.univ.image fun k : Fin (dim order) => mon (powers order)[k]),
    Finset.sum_image fun a _ b _ h => mon_powers_injective order h]
  · exact Finset.sum_congr rfl fun k _ => by rw [coeff_polyOf]
  · intro m hm
    obtain ⟨k, hk⟩ := support_polyOf order a hm
    exact Finset.mem_image.mpr ⟨k, Finset.mem_univ _, hk⟩
  · intro m _ hm
    rw [notMem_support_iff.mp hm]
    norm_num

theorem eval_polyOf (order : Nat) (a : Fin (dim order) → ℝ) (d : V3) (delta : ℝ) :
    eval (fun i => d i / delta) (polyOf order a) = ∑ k, a k * qVector order d delta k := by
  rw [eval_powers order _ (degree_polyOf order a), constant_polyOf, zero_add]
  exact Finset.sum_congr rfl fun k _ => by rw [coeff_polyOf]; rfl

/-! ### Sums over the bonds of a point -/

theorem bonds_at_sum (nbs : List (List Nat)) {p : Nat} (hp : p < nbs.length) (f : Bond → ℝ) :
    ((bondsAt (bondsOf nbs) p).map f).sum =
      ((nbs.getD p []).zipIdx.map fun (j, t) => f ⟨p, j, bondPos nbs p t⟩).sum := by
  have h : nbs[p]? = some (nbs.getD p []) := by
    rw [List.getD_eq_getElem?_getD, List.getElem?_eq_getElem hp, Option.getD_some]
  unfold bondsAt
  rw [filter_bondsOf nbs h, List.map_map]
  rfl

theorem quadratic (B : Body) (order : Nat) (om : Bond → ℝ) (bs : List Bond) (a : Fin (dim order) → ℝ) :
    ∑ i, ∑ j, a i * momentOf B order om bs i j * a j =
      (bs.map fun b => om b * B.volume b.j *
        (∑ k, a k * qVector order (xi B b) (B.horizon b.i) k) ^ 2).sum := by
  induction bs with
  | nil => simp [momentOf]
  | cons b bs ih =>
    rw [List.map_cons, List.sum_cons, ← ih, pow_two, Finset.sum_mul_sum, Finset.mul_sum, ← Finset.sum_add_distrib]
    refine Finset.sum_congr rfl fun i _ => ?_
    rw [Finset.mul_sum, ← Finset.sum_add_distrib]
    refine Finset.sum_congr rfl fun j _ => ?_
    simp only [momentOf, List.map_cons, List.sum_cons]
    ring

theorem wellPlaced_bound {B : Body} {order : Nat} {d : Nat → ℝ} {nbs : List (List Nat)} {p : Nat}
    (hp : p < nbs.length) (h : WellPlaced B order d nbs p) :
    ∃ c, B.horizon p ^ 3 / 10 ^ 6 < c ∧ ∀ a : Fin (dim order) → ℝ, c * ∑ i, a i ^ 2 ≤
      ∑ i, ∑ j, a i * momentOf B order (influenceOf B d) (bondsAt (bondsOf nbs) p) i j * a j := by
  obtain ⟨c, hc, h⟩ := h
  refine ⟨c, hc, fun a => ?_⟩
  have := h (polyOf order a) (degree_polyOf order a) (constant_polyOf order a)
  rw [squares_polyOf] at this
  refine this.trans (le_of_eq ?_)
  rw [quadratic, bonds_at_sum nbs hp]
  congr 1
  refine List.map_congr_left fun x _ => ?_
  obtain ⟨j, t⟩ := x
  simp only
  rw [← eval_polyOf]
  rfl

/-! ### Exactness -/

theorem phi_eq {B : Body} {D : Decompose} {order : Nat} (ho : order ≠ 0) {d : Nat → ℝ} {bs : List Bond} {p : Nat} {b : Bond}
    (hi : b.i = p) (c : Fin 3) :
    freshPhi B D order d bs p b c = ∑ k, influenceOf B d b *
      (invertAndCond D (momentOf B order (influenceOf B d) bs)
        (1 / 10 ^ 6 * B.horizon p * B.horizon p * B.horizon p)).2 ⟨c.val, lt_of_lt_of_le c.2 (dim_ge ho)⟩ k *
      qVector order (xi B b) (B.horizon p) k / B.horizon p := by
  unfold freshPhi phiOf
  rw [foldl_sum]
  refine Finset.sum_congr rfl fun k _ => ?_
  rw [dif_pos (lt_of_lt_of_le c.2 (dim_ge ho)), hi, one_mul]

/-- With current weights the gradient of a polynomial field is exact. -/
theorem gradient_exact {B : Body} {D : Decompose} (hD : D.Correct) {order : Nat} (ho : order ≠ 0) {d : Nat → ℝ}
    {nbs : List (List Nat)} {w : Weights} {p : Nat} (hp : p < nbs.length) (hc : Current B D order d (bondsOf nbs) w p)
    (hh : 0 < B.horizon p) (hw : WellPlaced B order d nbs p) {Z : Fin 3 → Poly}
    (hZ : ∀ c, (Z c).totalDegree ≤ order) {z : Nat → V3} (hz : Follows B nbs p Z z) (start : M9) :
    (gradientAt B w.phi start z (bondsAt (bondsOf nbs) p)).toMatrix = start.toMatrix + gradientOf Z (B.x p) := by
  set bs := bondsAt (bondsOf nbs) p with hbs
  set om := influenceOf B d with hom
  set M := momentOf B order om bs with hM
  set inv := (invertAndCond D M (1 / 10 ^ 6 * B.horizon p * B.horizon p * B.horizon p)).2 with hinv
  obtain ⟨c0, hc0, hb⟩ := wellPlaced_bound hp hw
  have hone : inv * M = 1 := by
    refine pseudo_inverse (hD _ _ (momentOf_symm B order om bs)) (by positivity) fun k => ?_
    have := singular_bound (hD _ _ (momentOf_symm B order om bs)) hb k
    have e : 1 / 10 ^ 6 * B.horizon p * B.horizon p * B.horizon p = B.horizon p ^ 3 / 10 ^ 6 := by ring
    rw [e]
    exact lt_of_lt_of_le hc0 this
  unfold gradientAt
  rw [foldl_addOuter]
  congr 1
  ext c e
  let a : Fin (dim order) → ℝ := fun l => coeff (mon (powers order)[l]) (shift (B.x p) (B.horizon p) (Z c))
  have hdz : ∀ b ∈ bs, z b.j c - z b.i c = ∑ l, a l * qVector order (xi B b) (B.horizon p) l := by
    intro b hb
    obtain ⟨hi, ns, h1, h2⟩ := mem_bondsAt hb
    rw [hz b.j (Or.inr ⟨ns, h1, h2⟩) c, hz b.i (Or.inl hi) c, hi]
    have h3 := eval_powers order (shift (B.x p) (B.horizon p) (Z c))
      ((shift_degree _ _ _).trans (hZ c)) (fun i => xi B b i / B.horizon p)
    rw [eval_shift, shift_zero] at h3
    have h4 : (fun d => B.x p d + B.horizon p * (xi B b d / B.horizon p)) = B.x b.j := by
      funext d
      unfold xi
      rw [hi, Pi.sub_apply]
      field_simp
      ring
    rw [h4] at h3
    rw [h3, add_sub_cancel_left]
    rfl
  have hsum : ∀ (l : List Bond), (∀ b ∈ l, b ∈ bs) →
      ((l.map fun b => B.volume b.j • vecMulVec (z b.j - z b.i) (w.phi b.b)).sum) c e =
      ∑ k, inv ⟨e.val, lt_of_lt_of_le e.2 (dim_ge ho)⟩ k * (∑ j, momentOf B order om l k j * a j) / B.horizon p := by
    intro l
    induction l with
    | nil => intro _; simp [momentOf]
    | cons b l ih =>
      intro hl
      have hb := hl b List.mem_cons_self
      rw [List.map_cons, List.sum_cons, Matrix.add_apply, ih fun b' hb' => hl b' (List.mem_cons_of_mem _ hb'),
        Matrix.smul_apply, vecMulVec_apply, Pi.sub_apply, hdz b hb, (hc b hb).2, phi_eq ho (mem_bondsAt hb).1,
        smul_eq_mul, Finset.mul_sum, Finset.mul_sum, ← Finset.sum_add_distrib]
      refine Finset.sum_congr rfl fun k _ => ?_
      have : ∑ j, momentOf B order om (b :: l) k j * a j = ∑ j, momentOf B order om l k j * a j +
          om b * B.volume b.j * qVector order (xi B b) (B.horizon p) k *
            ∑ j, a j * qVector order (xi B b) (B.horizon p) j := by
        rw [Finset.mul_sum, ← Finset.sum_add_distrib]
        refine Finset.sum_congr rfl fun j _ => ?_
        simp only [momentOf, List.map_cons, List.sum_cons, (mem_bondsAt hb).1]
        ring
      rw [this]
      simp only [← hom, ← hM, ← hinv]
      ring
  rw [hsum bs fun _ h => h]
  have h5 : ∀ k, ∑ j, momentOf B order om bs k j * a j = (M *ᵥ a) k := fun k => rfl
  simp only [h5]
  rw [← Finset.sum_div]
  have h6 : ∑ k, inv ⟨e.val, lt_of_lt_of_le e.2 (dim_ge ho)⟩ k * (M *ᵥ a) k =
      (inv *ᵥ (M *ᵥ a)) ⟨e.val, lt_of_lt_of_le e.2 (dim_ge ho)⟩ := rfl
  rw [h6, mulVec_mulVec, hone, one_mulVec]
  have h7 : a ⟨e.val, lt_of_lt_of_le e.2 (dim_ge ho)⟩ = B.horizon p * eval (B.x p) (pderiv e (Z c)) := by
    have h8 := mon_first ho e (lt_of_lt_of_le e.2 (dim_ge ho))
    show coeff (mon ((powers order)[e.val]'(lt_of_lt_of_le e.2 (dim_ge ho)))) _ = _
    rw [h8, coeff_shift]
  rw [h7, gradientOf]
  field_simp

end Verif.Assoc
