import Verif.Conserve.Spec
import Verif.Explicit.Lemmas
import Verif.Lps.Props
import Mathlib.LinearAlgebra.CrossProduct

/-! Lemmas for C255 to C257. -/

noncomputable section

namespace Verif.Conserve

open Verif Verif.Neigh Verif.Mech Verif.Explicit

variable {σ : Type}

theorem at3_add (c : ℝ) (v a : Nat → ℝ) (l : Nat) : at3 (fun i => v i + c * a i) l = at3 v l + c • at3 a l := by
  funext k
  simp [at3]

theorem cross_step (y v a a' : V3) (dt : ℝ) :
    crossProduct (y + dt • (v + (dt / 2) • a)) (v + (dt / 2) • a + (dt / 2) • a') =
      crossProduct y v + (dt / 2) • crossProduct y a + (dt / 2) • crossProduct (y + dt • (v + (dt / 2) • a)) a' := by
  have h : crossProduct (v + (dt / 2) • a) (v + (dt / 2) • a) = 0 := cross_self _
  generalize hh : v + (dt / 2) • a = h' at *
  rw [map_add (crossProduct (y + dt • h')), map_smul (crossProduct (y + dt • h'))]
  congr 1
  rw [map_add crossProduct, LinearMap.add_apply, map_smul crossProduct, LinearMap.smul_apply, h, smul_zero, add_zero, ← hh,
    map_add (crossProduct y), map_smul (crossProduct y)]

theorem momentless_acceleration {P : Params} {V : Nat → ℝ} {N : Nat} (hlen : P.length = 3 * N) {f a y : Nat → ℝ}
    (hd : ∀ i < P.length, P.density (i / 3) ≠ 0) (ha : ∀ i, a i = f i / P.density (i / 3))
    (hf : ∑ l ∈ Finset.range N, V l • crossProduct (at3 y l) (at3 f l) = 0) : angular P V N y a = 0 := by
  rw [← hf]
  unfold angular
  refine Finset.sum_congr rfl fun l hl => ?_
  have hl := Finset.mem_range.mp hl
  have hr := hd (l * 3) (by omega)
  rw [show l * 3 / 3 = l by omega] at hr
  have : at3 f l = P.density l • at3 a l := by
    funext k
    have e : (l * 3 + (k : Nat)) / 3 = l := by have := k.isLt; omega
    show f (l * 3 + k) = P.density l * a (l * 3 + k)
    rw [ha, e]
    field_simp
  rw [this, map_smul, smul_smul, mul_comm]

/-- Mass times acceleration is the force. -/
theorem force_acceleration {P : Params} {N : Nat} (hlen : P.length = 3 * N) {f a : Nat → ℝ} {F : Nat → V3}
    (hd : ∀ i < P.length, P.density (i / 3) ≠ 0) (ha : ∀ i, a i = f i / P.density (i / 3)) (hF : ∀ l < N, at3 f l = F l) :
    ∀ l < N, F l = P.density l • at3 a l := by
  intro l hl
  have hr := hd (l * 3) (by omega)
  rw [show l * 3 / 3 = l by omega] at hr
  rw [← hF l hl]
  funext k
  have e : (l * 3 + (k : Nat)) / 3 = l := by have := k.isLt; omega
  show f (l * 3 + k) = P.density l * a (l * 3 + k)
  rw [ha, e]
  field_simp

/-- The product of the accelerations with a displacement is the power of the forces. -/
theorem inner_power {P : Params} {C : Config} {N : Nat} {a : Nat → ℝ} {F : Nat → V3} (hF : ∀ l < N, F l = P.density l • at3 a l) (d : Nat → ℝ) :
    inner P C.v N a d = Energy.power C F (at3 d) N := by
  unfold inner Energy.power
  refine Finset.sum_congr rfl fun l hl => ?_
  rw [hF l (Finset.mem_range.mp hl), smul_dotProduct, smul_eq_mul]
  ring

theorem inner_comm (P : Params) (V : Nat → ℝ) (N : Nat) (v w : Nat → ℝ) : inner P V N v w = inner P V N w v := by
  unfold inner
  exact Finset.sum_congr rfl fun l _ => by rw [dotProduct_comm]

theorem inner_add (P : Params) (V : Nat → ℝ) (N : Nat) (c : ℝ) (v a w : Nat → ℝ) :
    inner P V N (fun i => v i + c * a i) w = inner P V N v w + c * inner P V N a w := by
  unfold inner
  rw [Finset.mul_sum, ← Finset.sum_add_distrib]
  refine Finset.sum_congr rfl fun l _ => ?_
  rw [at3_add, add_dotProduct, smul_dotProduct, smul_eq_mul]
  ring

theorem inner_add_right (P : Params) (V : Nat → ℝ) (N : Nat) (c : ℝ) (v a w : Nat → ℝ) :
    inner P V N w (fun i => v i + c * a i) = inner P V N w v + c * inner P V N w a := by
  rw [inner_comm, inner_add, inner_comm P V N v, inner_comm P V N a]

theorem inner_nonneg {P : Params} {V : Nat → ℝ} {N : Nat} (hV : ∀ l < N, 0 ≤ V l) (hr : ∀ l < N, 0 ≤ P.density l) (v : Nat → ℝ) :
    0 ≤ inner P V N v v := by
  unfold inner
  refine Finset.sum_nonneg fun l hl => ?_
  have hl := Finset.mem_range.mp hl
  refine mul_nonneg (mul_nonneg (hr l hl) (hV l hl)) ?_
  unfold dotProduct
  exact Finset.sum_nonneg fun k _ => mul_self_nonneg _

end Verif.Conserve
