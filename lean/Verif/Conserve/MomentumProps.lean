import Verif.Conserve.MomentumSpec
import Verif.Conserve.NewmarkProps

/-! C268: linear momentum in implicit dynamics. -/

noncomputable section

namespace Verif.Conserve

open Verif Verif.Neigh Verif.Mech

variable {σ ω : Type}

/-- The sum of the accelerations after a step whose iteration converged. -/
theorem total_acceleration {P : Implicit.Params} (hbd : 0 < P.beta * P.dt ^ 2) {E : QuasiStatic.Env} (hm : E.dofs = BC.dispOnly)
    (hcs : BC.makeConditions [] = .ok E.cs) (hown : E.C.owned.Nodup) {V : Nat → ℝ} (hV : ∀ l < E.C.owned.length, 0 ≤ V l)
    {T : Implicit.Solver σ ω} (hT : ForcesCancel V E.C.owned.length T) {st : Nat → Implicit.State σ ω} {n m : Nat}
    (hrun : ∀ m ≤ n, Implicit.run P E T (st 0) m = .ok (st m))
    (hconv : ∀ m < n, ∀ t, Implicit.solve P E T (st m) = .ok t → t.norm ≤ P.absoluteTolerance) (hmn : m < n) {k : Nat} (hk : k < 3) :
    |total P.density V E.C.owned.length k (st (m + 1)).a| ≤
      P.absoluteTolerance / (P.beta * P.dt ^ 2) * ∑ l ∈ Finset.range E.C.owned.length, V l := by
  obtain ⟨s1, wk, wk', w, f, norm, e1, hf, hw, happ, ⟨t, ht, rfl⟩, hres⟩ := Implicit.C43_balance P E T [] hcs hm (st 0) m (st (m + 1)) (hrun _ hmn)
  have e0 : s1 = st m := BC.ok_inj (e1.symm.trans (hrun m hmn.le))
  rw [e0] at ht hf
  obtain ⟨hb0, hf0⟩ := Explicit.no_conditions hcs
  rw [hf0] at happ
  have e2 : BC.clearForce w = (st (m + 1)).vecs := BC.ok_inj happ
  have hz := hT _ _ _ _ _ _ hf k hk
  have e3 : total P.density V E.C.owned.length k (st (m + 1)).a =
      ∑ l ∈ Finset.range E.C.owned.length, V l * (P.density l * (st (m + 1)).a (l * 3 + k) - f (l * 3 + k)) := by
    simp only [mul_sub]
    rw [Finset.sum_sub_distrib, hz, sub_zero]
    rfl
  rw [e3, Finset.mul_sum]
  refine (Finset.abs_sum_le_sum_abs _ _).trans (Finset.sum_le_sum fun l hl => ?_)
  have hl := Finset.mem_range.1 hl
  have hx := hres E.C.owned[l] l k (by
    unfold BC.lid
    rw [if_pos (List.getElem_mem hl), hown.idxOf_getElem]) hk (by
      rw [hb0]
      rintro ⟨-, c, hc, -⟩
      simp at hc)
  have e4 : (st (m + 1)).vecs .externalForce (l * 3 + k) = 0 := by rw [← e2]; simp [BC.clearForce]
  rw [e4, sub_zero] at hx
  have hx := hx.trans (hconv m hmn t ht)
  rw [abs_mul, abs_of_pos hbd] at hx
  rw [abs_mul, abs_of_nonneg (hV l hl), mul_comm]
  refine mul_le_mul_of_nonneg_right ?_ (hV l hl)
  rw [le_div_iff₀ hbd, mul_comm]
  exact hx

/-- How a step changes the total momentum and the center of mass. -/
theorem total_step {P : Implicit.Params} {E : QuasiStatic.Env} (hcs : BC.makeConditions [] = .ok E.cs) {V : Nat → ℝ} {N : Nat}
    {T : Implicit.Solver σ ω} {st : Nat → Implicit.State σ ω} {n m : Nat} (hrun : ∀ m ≤ n, Implicit.run P E T (st 0) m = .ok (st m))
    (hmn : m < n) (k : Nat) :
    total P.density V N k ((st (m + 1)).vecs .v) = total P.density V N k ((st m).vecs .v) +
      P.dt * ((1 - P.gamma) * total P.density V N k (st m).a + P.gamma * total P.density V N k (st (m + 1)).a) ∧
    total P.density V N k ((st (m + 1)).vecs .u) = total P.density V N k ((st m).vecs .u) + P.dt * total P.density V N k ((st m).vecs .v) +
      P.dt ^ 2 * ((1 / 2 - P.beta) * total P.density V N k (st m).a + P.beta * total P.density V N k (st (m + 1)).a) := by
  obtain ⟨s1, e1, -, -, hs⟩ := Implicit.C43_newmark P E T [] hcs (st 0) m (st (m + 1)) (hrun _ hmn)
  have e0 : s1 = st m := BC.ok_inj (e1.symm.trans (hrun m hmn.le))
  rw [e0] at hs
  unfold total
  constructor
  · simp only [Finset.mul_sum, ← Finset.sum_add_distrib]
    refine Finset.sum_congr rfl fun l _ => ?_
    rw [(hs _).2.1]
    ring
  · simp only [Finset.mul_sum, ← Finset.sum_add_distrib]
    refine Finset.sum_congr rfl fun l _ => ?_
    rw [(hs _).1]
    ring

/-- **C268** Implicit dynamics without boundary conditions and body forces conserves linear momentum up to the tolerance, for all materials whose
internal forces sum to zero and steps of any length: if the accelerations at the beginning sum to zero, as those of a new analysis do, and the
iterations of all steps converge, the momentum after `n` steps differs from the initial momentum by at most the time passed times the tolerance
divided by `beta dt²` times the volume of the body. -/
theorem C268_momentum (P : Implicit.Params) (hb : 0 < P.beta) (hg : 0 ≤ P.gamma ∧ P.gamma ≤ 1) (hdt : 0 < P.dt) (htol : 0 ≤ P.absoluteTolerance)
    (E : QuasiStatic.Env) (hm : E.dofs = BC.dispOnly) (hcs : BC.makeConditions [] = .ok E.cs) (hown : E.C.owned.Nodup) (V : Nat → ℝ)
    (hV : ∀ l < E.C.owned.length, 0 ≤ V l) (T : Implicit.Solver σ ω) (hT : ForcesCancel V E.C.owned.length T) (st : Nat → Implicit.State σ ω)
    (n : Nat) (hrun : ∀ m ≤ n, Implicit.run P E T (st 0) m = .ok (st m))
    (hconv : ∀ m < n, ∀ t, Implicit.solve P E T (st m) = .ok t → t.norm ≤ P.absoluteTolerance) (k : Nat) (hk : k < 3)
    (h0 : total P.density V E.C.owned.length k (st 0).a = 0) :
    |total P.density V E.C.owned.length k ((st n).vecs .v) - total P.density V E.C.owned.length k ((st 0).vecs .v)| ≤
      n * P.dt * (P.absoluteTolerance / (P.beta * P.dt ^ 2) * ∑ l ∈ Finset.range E.C.owned.length, V l) := by
  have hbd : 0 < P.beta * P.dt ^ 2 := by positivity
  obtain ⟨c, hc⟩ : ∃ c, c = P.absoluteTolerance / (P.beta * P.dt ^ 2) * ∑ l ∈ Finset.range E.C.owned.length, V l := ⟨_, rfl⟩
  rw [← hc]
  have hc0 : 0 ≤ c := by
    rw [hc]
    exact mul_nonneg (div_nonneg htol hbd.le) (Finset.sum_nonneg fun l hl => hV l (Finset.mem_range.1 hl))
  have hacc : ∀ m ≤ n, |total P.density V E.C.owned.length k (st m).a| ≤ c := by
    intro m hmn
    cases m with
    | zero => rw [h0, abs_zero]; exact hc0
    | succ m =>
      rw [hc]
      exact total_acceleration hbd hm hcs hown hV hT hrun hconv (by omega) hk
  suffices hmain : ∀ m ≤ n, |total P.density V E.C.owned.length k ((st m).vecs .v) - total P.density V E.C.owned.length k ((st 0).vecs .v)| ≤
      m * P.dt * c from hmain n le_rfl
  intro m
  induction m with
  | zero => intro _; simp
  | succ m ih =>
    intro hle
    have ih := ih (by omega)
    rw [(total_step hcs hrun (show m < n by omega) k).1]
    have a1 := abs_le.1 (hacc m (by omega))
    have a2 := abs_le.1 (hacc (m + 1) hle)
    have i := abs_le.1 ih
    obtain ⟨g0, g1⟩ := hg
    have g1 : 0 ≤ 1 - P.gamma := by linarith
    generalize total P.density V E.C.owned.length k (st m).a = A at *
    generalize total P.density V E.C.owned.length k (st (m + 1)).a = A' at *
    have u1 : (1 - P.gamma) * A + P.gamma * A' ≤ c := by nlinarith
    have u2 : -c ≤ (1 - P.gamma) * A + P.gamma * A' := by nlinarith
    have v1 := mul_le_mul_of_nonneg_left u1 hdt.le
    have v2 := mul_le_mul_of_nonneg_left u2 hdt.le
    push_cast
    rw [abs_le]
    constructor <;> linarith

/-- **C268** With exact solves the center of mass moves with constant velocity. -/
theorem C268_center (P : Implicit.Params) (hb : 0 < P.beta) (hg : 0 ≤ P.gamma ∧ P.gamma ≤ 1) (hdt : 0 < P.dt) (htol : P.absoluteTolerance = 0)
    (E : QuasiStatic.Env) (hm : E.dofs = BC.dispOnly) (hcs : BC.makeConditions [] = .ok E.cs) (hown : E.C.owned.Nodup) (V : Nat → ℝ)
    (hV : ∀ l < E.C.owned.length, 0 ≤ V l) (T : Implicit.Solver σ ω) (hT : ForcesCancel V E.C.owned.length T) (st : Nat → Implicit.State σ ω)
    (n : Nat) (hrun : ∀ m ≤ n, Implicit.run P E T (st 0) m = .ok (st m))
    (hconv : ∀ m < n, ∀ t, Implicit.solve P E T (st m) = .ok t → t.norm ≤ P.absoluteTolerance) (k : Nat) (hk : k < 3)
    (h0 : total P.density V E.C.owned.length k (st 0).a = 0) :
    total P.density V E.C.owned.length k ((st n).vecs .u) =
      total P.density V E.C.owned.length k ((st 0).vecs .u) + n * P.dt * total P.density V E.C.owned.length k ((st 0).vecs .v) := by
  have hbd : 0 < P.beta * P.dt ^ 2 := by positivity
  have hacc : ∀ m ≤ n, total P.density V E.C.owned.length k (st m).a = 0 := by
    intro m hmn
    cases m with
    | zero => exact h0
    | succ m =>
      have := total_acceleration hbd hm hcs hown hV hT hrun hconv (show m < n by omega) hk
      rw [htol, zero_div, zero_mul] at this
      exact abs_nonpos_iff.1 this
  have hvel : ∀ m ≤ n, total P.density V E.C.owned.length k ((st m).vecs .v) = total P.density V E.C.owned.length k ((st 0).vecs .v) := by
    intro m hmn
    have := C268_momentum P hb hg hdt htol.ge E hm hcs hown V hV T hT st m (fun j hj => hrun j (hj.trans hmn)) (fun j hj => hconv j (hj.trans_le hmn))
      k hk h0
    rw [htol, zero_div, zero_mul, mul_zero] at this
    exact sub_eq_zero.1 (abs_nonpos_iff.1 this)
  suffices hmain : ∀ m ≤ n, total P.density V E.C.owned.length k ((st m).vecs .u) =
      total P.density V E.C.owned.length k ((st 0).vecs .u) + m * P.dt * total P.density V E.C.owned.length k ((st 0).vecs .v) from hmain n le_rfl
  intro m
  induction m with
  | zero => intro _; simp
  | succ m ih =>
    intro hle
    rw [(total_step hcs hrun (show m < n by omega) k).2, ih (by omega), hvel m (by omega), hacc m (by omega), hacc (m + 1) hle]
    push_cast
    ring

/-- The pair of points, one of them pushed, meets the hypotheses of C268 for any number of steps, and its momentum is not zero. -/
example (n : Nat) : ∃ (S : Lps.Stored) (st : Nat → Implicit.State Unit Unit), 0 < barNewmark.beta ∧ 0 ≤ barNewmark.gamma ∧ barNewmark.gamma ≤ 1 ∧
    0 < barNewmark.dt ∧ barNewmark.absoluteTolerance = 0 ∧ barEnv.dofs = BC.dispOnly ∧ BC.makeConditions [] = .ok barEnv.cs ∧
    barEnv.C.owned.Nodup ∧ ForcesCancel (fun _ => 1) barEnv.C.owned.length (barSolver S) ∧
    (∀ m ≤ n, Implicit.run barNewmark barEnv (barSolver S) (st 0) m = .ok (st m)) ∧
    (∀ m < n, ∀ t, Implicit.solve barNewmark barEnv (barSolver S) (st m) = .ok t → t.norm ≤ barNewmark.absoluteTolerance) ∧
    total barNewmark.density (fun _ => 1) barEnv.C.owned.length 0 (st 0).a = 0 ∧
    total barNewmark.density (fun _ => 1) barEnv.C.owned.length 0 ((st 0).vecs .v) = 1 := by
  obtain ⟨S, hS⟩ := Lps.setUp_exists (Lps.bar 0 0) Lps.barNbs
  obtain ⟨st, i0, i1, i2⟩ := bar_run hS
    { vecs := fun q i => if q = .v ∧ i = 3 then 1 else 0, a := fun _ => 0, time := 0, timePrevious := 0, N := (), work := () }
  have e : barEnv.C.owned.length = 2 := rfl
  refine ⟨S, st, by norm_num [barNewmark], by norm_num [barNewmark], by norm_num [barNewmark], by norm_num [barNewmark], rfl, rfl, rfl, by decide,
    ?_, fun m _ => by rw [i0]; exact i1 m, fun m _ t ht => (i2 m t ht).le, ?_, ?_⟩
  · intro M wk w a wk' f h k hk
    obtain ⟨F, ⟨th, hF⟩, hat⟩ := barSolver_solves S M wk w a wk' f h
    obtain ⟨b0, b1⟩ := bar_displaced hS hF
    have g0 : f (0 * 3 + k) = F 0 ⟨k, hk⟩ := by rw [← hat 0 (by decide)]; rfl
    have g1 : f (1 * 3 + k) = F 1 ⟨k, hk⟩ := by rw [← hat 1 (by decide)]; rfl
    rw [e, Finset.sum_range_succ, Finset.sum_range_one, g0, g1, b0, b1]
    match k, hk with
    | 0, _ => simp
    | 1, _ => simp
    | 2, _ => simp
  · rw [i0, e]
    simp [total]
  · rw [i0, e]
    simp [total, Finset.sum_range_succ, barNewmark]

end Verif.Conserve
