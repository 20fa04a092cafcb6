import Verif.Assoc.Model
import Mathlib.Algebra.MvPolynomial.PDeriv
import Mathlib.Algebra.MvPolynomial.Degrees
import Mathlib.Algebra.BigOperators.Fin
import Mathlib.Tactic.Common
import Mathlib.Tactic.Ring

/-!
# Bond-associated correspondence material: polynomials and the order of the monomials
-/

noncomputable section

namespace Verif.Assoc

open Verif MvPolynomial

/-- Polynomials in the three coordinates. -/
abbrev Poly := MvPolynomial (Fin 3) ℝ

/-- The polynomial in coordinates relative to `x`, in units of `delta`. -/
def shift (x : Fin 3 → ℝ) (delta : ℝ) (Z : Poly) : Poly :=
  aeval (fun d => C (x d) + C delta * X d : Fin 3 → Poly) Z

theorem eval_shift (x : Fin 3 → ℝ) (delta : ℝ) (Z : Poly) (q : Fin 3 → ℝ) :
    eval q (shift x delta Z) = eval (fun d => x d + delta * q d) Z := by
  unfold shift
  induction Z using MvPolynomial.induction_on with
  | C a => simp
  | add p q hp hq => simp only [map_add, hp, hq]
  | mul_X p i hp => simp only [map_mul, hp, aeval_X, map_add, eval_C, eval_X]

theorem pderiv_shift (x : Fin 3 → ℝ) (delta : ℝ) (Z : Poly) (d : Fin 3) :
    pderiv d (shift x delta Z) = C delta * shift x delta (pderiv d Z) := by
  unfold shift
  induction Z using MvPolynomial.induction_on with
  | C a => simp
  | add p q hp hq => simp only [map_add, hp, hq, mul_add]
  | mul_X p i hp =>
    rw [map_mul, pderiv_mul, hp, pderiv_mul, map_add, map_mul, map_mul, aeval_X]
    by_cases h : i = d
    · subst h
      simp only [map_add, pderiv_C, pderiv_C_mul, pderiv_X_self, map_one]
      ring
    · simp only [map_add, pderiv_C, pderiv_C_mul, pderiv_X_of_ne h, map_zero]
      ring

theorem coeff_shift (x : Fin 3 → ℝ) (delta : ℝ) (Z : Poly) (d : Fin 3) :
    coeff (Finsupp.single d 1) (shift x delta Z) = delta * eval x (pderiv d Z) := by
  have h := coeff_pderiv (i := d) (shift x delta Z) 0
  rw [zero_add, Finsupp.coe_zero, Pi.zero_apply, Nat.cast_zero, zero_add, mul_one] at h
  rw [← h, pderiv_shift, coeff_C_mul]
  congr 1
  have := eval_shift x delta (pderiv d Z) 0
  simp only [Pi.zero_apply, mul_zero, add_zero] at this
  rw [← this, eval_zero, constantCoeff_eq]

theorem shift_zero (x : Fin 3 → ℝ) (delta : ℝ) (Z : Poly) :
    coeff 0 (shift x delta Z) = eval x Z := by
  have := eval_shift x delta Z 0
  simp only [Pi.zero_apply, mul_zero, add_zero] at this
  rw [← this, eval_zero, constantCoeff_eq]

theorem shift_degree (x : Fin 3 → ℝ) (delta : ℝ) (Z : Poly) :
    (shift x delta Z).totalDegree ≤ Z.totalDegree := by
  unfold shift
  rw [aeval_def, eval₂_eq']
  refine (totalDegree_finsetSum_le fun m hm => ?_)
  refine (totalDegree_mul _ _).trans ?_
  rw [algebraMap_eq, totalDegree_C, zero_add]
  refine (totalDegree_finsetProd _ _).trans ?_
  have hs : ∑ i, m i ≤ Z.totalDegree := by
    have := le_totalDegree hm
    rwa [Finsupp.sum_fintype _ _ fun _ => rfl] at this
  refine le_trans (Finset.sum_le_sum fun i _ => ?_) hs
  · refine (totalDegree_pow _ _).trans ?_
    have : (C (x i) + C delta * X i : Poly).totalDegree ≤ 1 := by
      refine (totalDegree_add _ _).trans (max_le ?_ ?_)
      · rw [totalDegree_C]; exact Nat.zero_le _
      · refine (totalDegree_mul _ _).trans ?_
        rw [totalDegree_C, totalDegree_X]
    calc m i * _ ≤ m i * 1 := Nat.mul_le_mul_left _ this
      _ = m i := mul_one _

/-! ### The list of powers -/

theorem mem_down {t k : Nat} : k ∈ down t ↔ k ≤ t := by
  unfold down
  rw [List.mem_reverse, List.mem_range]
  omega

theorem down_nodup (t : Nat) : (down t).Nodup := List.nodup_reverse.mpr List.nodup_range

theorem mem_powers {order : Nat} {t : Nat × Nat × Nat} :
    t ∈ powers order ↔ 1 ≤ t.1 + t.2.1 + t.2.2 ∧ t.1 + t.2.1 + t.2.2 ≤ order := by
  obtain ⟨a, b, c⟩ := t
  unfold powers
  simp only [List.mem_flatMap, List.mem_range, List.mem_map, mem_down, Prod.mk.injEq]
  constructor
  · rintro ⟨t, h1, p1, h2, p2, h3, rfl, rfl, rfl⟩
    omega
  · rintro ⟨h1, h2⟩
    exact ⟨a + b + c - 1, by omega, a, by omega, b, by omega, rfl, rfl, by omega⟩

theorem powers_nodup (order : Nat) : (powers order).Nodup := by
  unfold powers
  rw [List.nodup_flatMap]
  refine ⟨fun t _ => ?_, ?_⟩
  · rw [List.nodup_flatMap]
    refine ⟨fun p1 _ => ?_, ?_⟩
    · refine (down_nodup _).map_on fun a _ b _ h => ?_
      simp only [Prod.mk.injEq] at h
      exact h.2.1
    · refine (down_nodup _).imp fun {a b} hab => ?_
      intro x hx hy
      obtain ⟨_, _, rfl⟩ := List.mem_map.mp hx
      obtain ⟨_, _, h⟩ := List.mem_map.mp hy
      simp only [Prod.mk.injEq] at h
      exact hab h.1.symm
  · refine List.nodup_range.imp fun {a b} hab => ?_
    intro x hx hy
    simp only [List.mem_flatMap, List.mem_map, mem_down] at hx hy
    obtain ⟨p1, h1, p2, h2, rfl⟩ := hx
    obtain ⟨q1, h3, q2, h4, h⟩ := hy
    simp only [Prod.mk.injEq] at h
    omega

theorem powers_first (order : Nat) (h : order ≠ 0) :
    ∃ rest, powers order = (1, 0, 0) :: (0, 1, 0) :: (0, 0, 1) :: rest := by
  obtain ⟨n, rfl⟩ := Nat.exists_eq_succ_of_ne_zero h
  unfold powers
  rw [Nat.succ_eq_add_one, List.range_succ_eq_map, List.flatMap_cons]
  exact ⟨_, rfl⟩

theorem dim_ge {order : Nat} (h : order ≠ 0) : 3 ≤ dim order := by
  obtain ⟨rest, e⟩ := powers_first order h
  unfold dim
  rw [e]
  simp

/-- A monomial given by its powers. -/
def mon (t : Nat × Nat × Nat) : Fin 3 →₀ ℕ := Finsupp.equivFunOnFinite.symm ![t.1, t.2.1, t.2.2]

theorem mon_injective : Function.Injective mon := by
  intro a b h
  have h' := Finsupp.equivFunOnFinite.symm.injective h
  have h0 := congrFun h' 0
  have h1 := congrFun h' 1
  have h2 := congrFun h' 2
  obtain ⟨a1, a2, a3⟩ := a
  obtain ⟨b1, b2, b3⟩ := b
  simp only [Matrix.cons_val_zero, Matrix.cons_val_one] at h0 h1
  have h2' : a3 = b3 := h2
  subst h0 h1 h2'
  rfl

theorem mon_first {order : Nat} (h : order ≠ 0) (c : Fin 3) (hc : c.val < dim order) :
    mon (powers order)[c.val] = Finsupp.single c 1 := by
  obtain ⟨rest, e⟩ := powers_first order h
  have : ∀ (l : List (Nat × Nat × Nat)) (hl : c.val < l.length), l = (1, 0, 0) :: (0, 1, 0) :: (0, 0, 1) :: rest →
      mon l[c.val] = Finsupp.single c 1 := by
    intro l hl e
    subst e
    fin_cases c <;> ext d <;> fin_cases d <;> simp [mon, Finsupp.single_apply]
  exact this _ hc e

theorem monomial_value (q : Fin 3 → ℝ) (t : Nat × Nat × Nat) :
    ∏ i, q i ^ mon t i = 1 * q 0 ^ t.1 * q 1 ^ t.2.1 * q 2 ^ t.2.2 := by
  rw [Fin.prod_univ_three, one_mul]
  rfl

/-- A polynomial of degree at most the order in terms of the vector `Q`. -/
theorem eval_powers (order : Nat) (S : Poly) (hS : S.totalDegree ≤ order) (q : Fin 3 → ℝ) :
    eval q S = coeff 0 S + ∑ k : Fin (dim order), coeff (mon (powers order)[k]) S *
      (1 * q 0 ^ ((powers order)[k]).1 * q 1 ^ ((powers order)[k]).2.1 *
        q 2 ^ ((powers order)[k]).2.2) := by
  classical
  have hinj : Function.Injective fun k : Fin (dim order) => mon (powers order)[k] := by
    intro a b h
    have := mon_injective h
    exact Fin.ext ((powers_nodup order).getElem_inj_iff.mp this)
  have hz : (0 : Fin 3 →₀ ℕ) ∉ Finset.univ.image fun k : Fin (dim order) => mon (powers order)[k] := by
    intro h
    obtain ⟨k, _, hk⟩ := Finset.mem_image.mp h
    have hm := (mem_powers.mp (List.getElem_mem (l := powers order) k.2)).1
    have h0 := congrArg (fun m : Fin 3 →₀ ℕ => m 0) hk
    have h1 := congrArg (fun m : Fin 3 →₀ ℕ => m 1) hk
    have h2 := congrArg (fun m : Fin 3 →₀ ℕ => m 2) hk
    have e0 : ((powers order)[k]).1 = 0 := h0
    have e1 : ((powers order)[k]).2.1 = 0 := h1
    have e2 : ((powers order)[k]).2.2 = 0 := h2
    have : ((powers order)[k.val]).1 + ((powers order)[k.val]).2.1 + ((powers order)[k.val]).2.2 = 0 := by
      show ((powers order)[k]).1 + ((powers order)[k]).2.1 + ((powers order)[k]).2.2 = 0
      omega
    omega
  have hsub : S.support ⊆ insert 0 (Finset.univ.image fun k : Fin (dim order) => mon (powers order)[k]) := by
    intro m hm
    rw [Finset.mem_insert]
    by_cases h : m = 0
    · exact Or.inl h
    · right
      have hd : m 0 + m 1 + m 2 ≤ order := by
        have := (le_totalDegree hm).trans hS
        rwa [Finsupp.sum_fintype _ _ fun _ => rfl, Fin.sum_univ_three] at this
      have hp : 1 ≤ m 0 + m 1 + m 2 := by
        by_contra hc
        apply h
        ext d
        fin_cases d <;> simp <;> omega
      have hmem : (m 0, m 1, m 2) ∈ powers order := mem_powers.mpr ⟨hp, hd⟩
      obtain ⟨k, hk, e⟩ := List.getElem_of_mem hmem
      refine Finset.mem_image.mpr ⟨⟨k, hk⟩, Finset.mem_univ _, ?_⟩
      show mon (powers order)[k] = m
      rw [e]
      ext d
      fin_cases d <;> rfl
  rw [eval_eq', Finset.sum_subset hsub, Finset.sum_insert hz, Finset.sum_image fun a _ b _ h => hinj h]
  · congr 1
    · simp
    · exact Finset.sum_congr rfl fun k _ => by rw [monomial_value]
  · intro m _ hm
    rw [notMem_support_iff.mp hm, zero_mul]

end Verif.Assoc
