import Verif.Conserve.NewmarkSpec
import Verif.Conserve.Props
import Verif.Implicit.Props

/-! C258: energy in implicit dynamics. -/

noncomputable section

namespace Verif.Conserve

open Verif Verif.Neigh Verif.Mech

variable {σ ω : Type}

/-- **C258** With average acceleration (`beta` one fourth, `gamma` one half) the energy changes in a step by the work of the forces that are
missing for the balance of momentum, averaged over the beginning and the end of the step, whatever the boundary conditions. -/
theorem C258_step (P : Implicit.Params) (hb : P.beta = 1 / 4) (hg : P.gamma = 1 / 2) (E : QuasiStatic.Env) (T : Implicit.Solver σ ω)
    (ds : List BC.Definition) (hcs : BC.makeConditions ds = .ok E.cs) (C : Config) (K mu : ℝ) (S : Lps.Stored) (nbs : List (List Nat))
    (hN : Within nbs nbs.length) (ghost : (Nat → ℝ) → Nat → ℝ) (s0 s s' : Implicit.State σ ω) (n : Nat)
    (h : Implicit.run P E T s0 n = .ok s) (h' : Implicit.run P E T s0 (n + 1) = .ok s') (F F' : Nat → V3)
    (hF : LpsForce C K mu S nbs ghost (s.vecs .u) F) (hF' : LpsForce C K mu S nbs ghost (s'.vecs .u) F') :
    (kinetic P.density C.v nbs.length (s'.vecs .v) + stored C.v nbs.length F' (s'.vecs .u)) -
      (kinetic P.density C.v nbs.length (s.vecs .v) + stored C.v nbs.length F (s.vecs .u)) =
    1 / 2 * ∑ l ∈ Finset.range nbs.length, C.v l *
      ((missing P.density F s.a l + missing P.density F' s'.a l) ⬝ᵥ (at3 (s'.vecs .u) l - at3 (s.vecs .u) l)) := by
  obtain ⟨s1, e1, -, -, hs⟩ := Implicit.C43_newmark P E T ds hcs s0 n s' h'
  have := BC.ok_inj (e1.symm.trans h)
  subst this
  obtain ⟨t, ht⟩ := hF
  obtain ⟨t', ht'⟩ := hF'
  have hrec := Lps.C136_reciprocal ht ht' hN
  unfold Energy.power at hrec
  have hsum : ∀ l, P.density l * (at3 (s'.vecs .v) l ⬝ᵥ at3 (s'.vecs .v) l) - P.density l * (at3 (s1.vecs .v) l ⬝ᵥ at3 (s1.vecs .v) l) =
      (P.density l • at3 s1.a l + P.density l • at3 s'.a l) ⬝ᵥ (at3 (s'.vecs .u) l - at3 (s1.vecs .u) l) := by
    intro l
    have hu : ∀ k : Fin 3, at3 (s'.vecs .u) l k - at3 (s1.vecs .u) l k = P.dt / 2 * (at3 (s1.vecs .v) l k + at3 (s'.vecs .v) l k) := by
      intro k
      show s'.vecs .u _ - s1.vecs .u _ = P.dt / 2 * (s1.vecs .v _ + s'.vecs .v _)
      rw [(hs _).1, (hs _).2.1, hb, hg]
      ring
    have hv : ∀ k : Fin 3, at3 (s'.vecs .v) l k = at3 (s1.vecs .v) l k + P.dt / 2 * (at3 s1.a l k + at3 s'.a l k) := by
      intro k
      show s'.vecs .v _ = s1.vecs .v _ + P.dt / 2 * (s1.a _ + s'.a _)
      rw [(hs _).2.1, hg]
      ring
    simp only [dotProduct, Fin.sum_univ_three, Pi.add_apply, Pi.sub_apply, Pi.smul_apply, smul_eq_mul, hu, hv]
    ring
  have e2 : (1 / 2 : ℝ) * ∑ l ∈ Finset.range nbs.length, C.v l *
      ((missing P.density F s1.a l + missing P.density F' s'.a l) ⬝ᵥ (at3 (s'.vecs .u) l - at3 (s1.vecs .u) l)) =
      1 / 2 * (∑ l ∈ Finset.range nbs.length, C.v l * (P.density l * (at3 (s'.vecs .v) l ⬝ᵥ at3 (s'.vecs .v) l)) -
        ∑ l ∈ Finset.range nbs.length, C.v l * (P.density l * (at3 (s1.vecs .v) l ⬝ᵥ at3 (s1.vecs .v) l)) -
        (∑ l ∈ Finset.range nbs.length, C.v l * (F l ⬝ᵥ at3 (s'.vecs .u) l) - ∑ l ∈ Finset.range nbs.length, C.v l * (F l ⬝ᵥ at3 (s1.vecs .u) l) +
          ∑ l ∈ Finset.range nbs.length, C.v l * (F' l ⬝ᵥ at3 (s'.vecs .u) l) -
          ∑ l ∈ Finset.range nbs.length, C.v l * (F' l ⬝ᵥ at3 (s1.vecs .u) l))) := by
    congr 1
    rw [← Finset.sum_sub_distrib, ← Finset.sum_sub_distrib, ← Finset.sum_add_distrib, ← Finset.sum_sub_distrib, ← Finset.sum_sub_distrib]
    refine Finset.sum_congr rfl fun l _ => ?_
    rw [← mul_sub, hsum l]
    simp only [missing, dotProduct_sub, add_dotProduct, sub_dotProduct]
    ring
  rw [e2, hrec]
  unfold kinetic stored
  ring

/-- **C258** After every step the missing force is at most the norm at which the nonlinear iteration ended, divided by `beta dt²`: without
boundary conditions at every point. -/
theorem C258_balance (P : Implicit.Params) (E : QuasiStatic.Env) (hm : E.dofs = BC.dispOnly) (hcs : BC.makeConditions [] = .ok E.cs)
    (hown : E.C.owned.Nodup) (C : Config) (K mu : ℝ) (S : Lps.Stored) (nbs : List (List Nat)) (hlen : E.C.owned.length = nbs.length)
    (ghost : (Nat → ℝ) → Nat → ℝ) (T : Implicit.Solver σ ω) (hT : Solves C K mu S nbs ghost T) (s0 s s' : Implicit.State σ ω) (n : Nat)
    (h : Implicit.run P E T s0 n = .ok s) (h' : Implicit.run P E T s0 (n + 1) = .ok s') :
    ∃ t F', Implicit.solve P E T s = .ok t ∧ LpsForce C K mu S nbs ghost (s'.vecs .u) F' ∧
      ∀ l < nbs.length, ∀ k : Fin 3, |P.beta * P.dt ^ 2 * missing P.density F' s'.a l k| ≤ t.norm := by
  obtain ⟨s1, wk, wk', w, f, norm, e1, hf, hw, happ, ⟨t, ht, rfl⟩, hres⟩ := Implicit.C43_balance P E T [] hcs hm s0 n s' h'
  have := BC.ok_inj (e1.symm.trans h)
  subst this
  obtain ⟨hb0, hf0⟩ := Explicit.no_conditions hcs
  obtain ⟨F', hF', hat⟩ := hT _ _ _ _ _ _ hf
  rw [hw .u (by decide)] at hF'
  refine ⟨t, F', ht, hF', fun l hl k => ?_⟩
  rw [hf0] at happ
  have e2 : BC.clearForce w = s'.vecs := BC.ok_inj happ
  have hl' : l < E.C.owned.length := by omega
  have hx := hres E.C.owned[l] l k (by
    unfold BC.lid
    rw [if_pos (List.getElem_mem hl'), hown.idxOf_getElem]) k.isLt (by
      rw [hb0]
      rintro ⟨-, c, hc, -⟩
      simp at hc)
  have e3 : s'.vecs .externalForce (l * 3 + k) = 0 := by rw [← e2]; simp [BC.clearForce]
  rw [e3, sub_zero] at hx
  have e4 : missing P.density F' s'.a l k = P.density l * s'.a (l * 3 + k) - f (l * 3 + k) := by
    show P.density l * s'.a (l * 3 + k) - F' l k = _
    rw [← hat l hl]
    rfl
  rw [e4]
  exact hx

/-- The work of small forces is small. -/
theorem work_le {V : Nat → ℝ} {N : Nat} (hV : ∀ l < N, 0 ≤ V l) {p q : Nat → V3} {c : ℝ} (hp : ∀ l < N, ∀ k, |p l k| ≤ c)
    (hq : ∀ l < N, ∀ k, |q l k| ≤ c) (u u' : Nat → ℝ) :
    |1 / 2 * ∑ l ∈ Finset.range N, V l * ((p l + q l) ⬝ᵥ (at3 u' l - at3 u l))| ≤ c * travelled V N u u' := by
  rw [abs_mul, abs_of_pos (by norm_num : (0 : ℝ) < 1 / 2)]
  have : |∑ l ∈ Finset.range N, V l * ((p l + q l) ⬝ᵥ (at3 u' l - at3 u l))| ≤ 2 * c * travelled V N u u' := by
    refine (Finset.abs_sum_le_sum_abs _ _).trans ?_
    unfold travelled
    rw [Finset.mul_sum]
    refine Finset.sum_le_sum fun l hl => ?_
    have hl := Finset.mem_range.mp hl
    rw [abs_mul, abs_of_nonneg (hV l hl), mul_left_comm]
    refine mul_le_mul_of_nonneg_left ?_ (hV l hl)
    unfold dotProduct
    refine (Finset.abs_sum_le_sum_abs _ _).trans ?_
    rw [Finset.mul_sum]
    refine Finset.sum_le_sum fun k _ => ?_
    rw [abs_mul]
    refine mul_le_mul_of_nonneg_right ?_ (abs_nonneg _)
    exact (abs_add_le _ _).trans (by linarith [hp l hl k, hq l hl k])
  linarith

/-- **C258** Implicit dynamics with average acceleration conserves energy up to the tolerance: if the run begins in balance and the
iterations of all steps converge, the energy after any number of steps differs from the initial energy by at most the way of the points
times the tolerance divided by `beta dt²`.  With the tolerance zero it is conserved exactly, for steps of any length. -/
theorem C258_conserved_partial (P : Implicit.Params) (hb : P.beta = 1 / 4) (hg : P.gamma = 1 / 2) (hdt : P.dt ≠ 0) (E : QuasiStatic.Env)
    (hm : E.dofs = BC.dispOnly) (hcs : BC.makeConditions [] = .ok E.cs)
    (hown : E.C.owned.Nodup) (C : Config) (K mu : ℝ) (S : Lps.Stored) (nbs : List (List Nat)) (hN : Within nbs nbs.length)
    (hV : ∀ l < nbs.length, 0 ≤ C.v l) (hlen : E.C.owned.length = nbs.length)
    (ghost : (Nat → ℝ) → Nat → ℝ) (T : Implicit.Solver σ ω) (hT : Solves C K mu S nbs ghost T)
    (st : Nat → Implicit.State σ ω) (n : Nat) (hrun : ∀ m ≤ n, Implicit.run P E T (st 0) m = .ok (st m))
    (hconv : ∀ m < n, ∀ t, Implicit.solve P E T (st m) = .ok t → t.norm ≤ P.absoluteTolerance)
    (F0 : Nat → V3) (hF0 : LpsForce C K mu S nbs ghost ((st 0).vecs .u) F0)
    (hstart : ∀ l < nbs.length, ∀ k, |P.beta * P.dt ^ 2 * missing P.density F0 (st 0).a l k| ≤ P.absoluteTolerance) :
    ∃ F, LpsForce C K mu S nbs ghost ((st n).vecs .u) F ∧
      |(kinetic P.density C.v nbs.length ((st n).vecs .v) + stored C.v nbs.length F ((st n).vecs .u)) -
        (kinetic P.density C.v nbs.length ((st 0).vecs .v) + stored C.v nbs.length F0 ((st 0).vecs .u))| ≤
      P.absoluteTolerance / (P.beta * P.dt ^ 2) *
        ∑ m ∈ Finset.range n, travelled C.v nbs.length ((st m).vecs .u) ((st (m + 1)).vecs .u) := by
  have hc : 0 < P.beta * P.dt ^ 2 := by rw [hb]; positivity
  have small : ∀ x : ℝ, |P.beta * P.dt ^ 2 * x| ≤ P.absoluteTolerance → |x| ≤ P.absoluteTolerance / (P.beta * P.dt ^ 2) := by
    intro x hx
    rw [abs_mul, abs_of_pos hc] at hx
    rw [le_div_iff₀ hc]
    linarith
  suffices hmain : ∀ m ≤ n, ∃ F, LpsForce C K mu S nbs ghost ((st m).vecs .u) F ∧
      (∀ l < nbs.length, ∀ k, |missing P.density F (st m).a l k| ≤ P.absoluteTolerance / (P.beta * P.dt ^ 2)) ∧
      |(kinetic P.density C.v nbs.length ((st m).vecs .v) + stored C.v nbs.length F ((st m).vecs .u)) -
        (kinetic P.density C.v nbs.length ((st 0).vecs .v) + stored C.v nbs.length F0 ((st 0).vecs .u))| ≤
      P.absoluteTolerance / (P.beta * P.dt ^ 2) *
        ∑ m ∈ Finset.range m, travelled C.v nbs.length ((st m).vecs .u) ((st (m + 1)).vecs .u) by
    obtain ⟨F, h1, -, h2⟩ := hmain n le_rfl
    exact ⟨F, h1, h2⟩
  intro m
  induction m with
  | zero => exact fun _ => ⟨F0, hF0, fun l hl k => small _ (hstart l hl k), by simp⟩
  | succ m ih =>
    intro hle
    obtain ⟨F, i1, i2, i3⟩ := ih (by omega)
    obtain ⟨t, F', ht, f1, f2⟩ := C258_balance P E hm hcs hown C K mu S nbs hlen ghost T hT (st 0) (st m) (st (m + 1)) m
      (hrun m (by omega)) (hrun (m + 1) hle)
    have f3 : ∀ l < nbs.length, ∀ k, |missing P.density F' (st (m + 1)).a l k| ≤ P.absoluteTolerance / (P.beta * P.dt ^ 2) :=
      fun l hl k => small _ ((f2 l hl k).trans (hconv m (by omega) t ht))
    refine ⟨F', f1, f3, ?_⟩
    have h1 := C258_step P hb hg E T [] hcs C K mu S nbs hN ghost (st 0) (st m) (st (m + 1)) m (hrun m (by omega)) (hrun (m + 1) hle) F F' i1 f1
    have h2 := work_le hV i2 f3 ((st m).vecs .u) ((st (m + 1)).vecs .u)
    rw [← h1] at h2
    rw [Finset.sum_range_succ, mul_add]
    refine le_trans ?_ (add_le_add i3 h2)
    refine le_trans (le_of_eq ?_) (abs_add_le _ _)
    congr 1
    ring

/-- **C258** Implicit dynamics with average acceleration is stable for steps of any length: with the tolerance zero the kinetic energy never
exceeds the initial energy. -/
theorem C258_stable (P : Implicit.Params) (hb : P.beta = 1 / 4) (hg : P.gamma = 1 / 2) (hdt : P.dt ≠ 0) (h0 : P.absoluteTolerance = 0)
    (E : QuasiStatic.Env) (hm : E.dofs = BC.dispOnly) (hcs : BC.makeConditions [] = .ok E.cs)
    (hown : E.C.owned.Nodup) (C : Config) (K mu : ℝ) (hC : Lps.Sound C K mu) (S : Lps.Stored) (nbs : List (List Nat))
    (hS : Lps.SetUp C nbs S) (hN : Within nbs nbs.length) (hlen : E.C.owned.length = nbs.length)
    (ghost : (Nat → ℝ) → Nat → ℝ) (T : Implicit.Solver σ ω) (hT : Solves C K mu S nbs ghost T)
    (st : Nat → Implicit.State σ ω) (n : Nat) (hrun : ∀ m ≤ n, Implicit.run P E T (st 0) m = .ok (st m))
    (hconv : ∀ m < n, ∀ t, Implicit.solve P E T (st m) = .ok t → t.norm ≤ P.absoluteTolerance)
    (F0 : Nat → V3) (hF0 : LpsForce C K mu S nbs ghost ((st 0).vecs .u) F0)
    (hstart : ∀ l < nbs.length, P.density l • at3 (st 0).a l = F0 l) :
    kinetic P.density C.v nbs.length ((st n).vecs .v) ≤
      kinetic P.density C.v nbs.length ((st 0).vecs .v) + stored C.v nbs.length F0 ((st 0).vecs .u) := by
  obtain ⟨F, ⟨t, hF⟩, h⟩ := C258_conserved_partial P hb hg hdt E hm hcs hown C K mu S nbs hN (fun l _ => (hC.volume l).le) hlen ghost T hT st n hrun
    hconv F0 hF0 (fun l hl k => by simp [missing, hstart l hl, h0])
  rw [h0, zero_div, zero_mul] at h
  have h := abs_nonpos_iff.1 h
  have hr := (Lps.C136_resists hC hS hF hN).1
  have : 0 ≤ stored C.v nbs.length F ((st n).vecs .u) := by
    unfold Energy.power at hr
    unfold stored
    linarith
  linarith

/-! ### The pair of points -/

/-- Average acceleration, steps of length one, and an exact solver. -/
def barNewmark : Implicit.Params :=
  { timeInitial := 0, timeFinal := 3, dt := 1, beta := 1 / 4, gamma := 1 / 2, absoluteTolerance := 0, maxSolverIterations := 10,
    density := fun _ => 1 }

/-- Two points without conditions. -/
def barEnv : QuasiStatic.Env := { C := barCtx, cs := {}, dofs := BC.dispOnly, volume := fun _ => 1 }

/-- The linear material, and the solution of the linear system of the pair of points. -/
def barSolver (S : Lps.Stored) : Implicit.Solver Unit Unit where
  force := fun _ _ w _ => barEval S () 0 w
  direction := fun _ _ _ _ r => .ok ((), fun i =>
    if i = 0 then 11 / 20 * r 0 + 9 / 20 * r 3 else if i = 3 then 9 / 20 * r 0 + 11 / 20 * r 3 else r i)
  shift := fun _ _ => ((), ())

theorem barSolver_solves (S : Lps.Stored) : Solves (Lps.bar 0 0) 1 1 S Lps.barNbs (fun t => t) (barSolver S) := by
  intro N wk w a wk' f h
  obtain ⟨th, F, h1, h2⟩ := barEval_lps S () 0 w wk' f h
  exact ⟨F, ⟨th, h1⟩, h2⟩

/-- The residual at a trial state of the pair. -/
theorem bar_evaluate {S : Lps.Stored} (hS : Lps.SetUp (Lps.bar 0 0) Lps.barNbs S) (tc tp : ℝ) (t : Implicit.Trial) :
    ∃ it, Implicit.evaluate barNewmark barEnv (barSolver S) () () tc tp t = .ok it ∧ it.trial.a = t.a ∧ it.trial.vecs .u = t.vecs .u ∧
      it.norm = QuasiStatic.norm2 6 it.residual ∧
      it.residual 0 = 1 / 4 * (t.a 0 - 18 * (t.vecs .u 3 - t.vecs .u 0)) ∧
      it.residual 3 = 1 / 4 * (t.a 3 + 18 * (t.vecs .u 3 - t.vecs .u 0)) ∧
      it.residual 1 = 1 / 4 * t.a 1 ∧ it.residual 2 = 1 / 4 * t.a 2 ∧ it.residual 4 = 1 / 4 * t.a 4 ∧ it.residual 5 = 1 / 4 * t.a 5 := by
  obtain ⟨b', f, hf⟩ := barEval_defined hS () 0 t.vecs
  obtain ⟨th, F, h1, h2⟩ := barEval_lps S _ _ _ _ _ hf
  obtain ⟨f0, f1⟩ := bar_displaced hS h1
  have g0 := h2 0 (by decide)
  have g1 := h2 1 (by decide)
  rw [f0] at g0
  rw [f1] at g1
  have k0 : f 0 = 18 * (t.vecs .u 3 - t.vecs .u 0) := congrFun g0 0
  have k1 : f 1 = 0 := congrFun g0 1
  have k2 : f 2 = 0 := congrFun g0 2
  have k3 : f 3 = -(18 * (t.vecs .u 3 - t.vecs .u 0)) := congrFun g1 0
  have k4 : f 4 = 0 := congrFun g1 1
  have k5 : f 5 = 0 := congrFun g1 2
  have hz : ∀ q : Nat → ℝ, QuasiStatic.zeroed barEnv q = .ok fun i => ([q 0, q 1, q 2, q 3, q 4, q 5] : List ℝ).getD i 0 := fun q => rfl
  have hap : BC.applyForces barEnv.C barEnv.cs.force tc tp t.vecs = .ok (BC.clearForce t.vecs) := rfl
  have he : ∀ i, BC.clearForce t.vecs .externalForce i = 0 := fun i => by simp [BC.clearForce]
  have hu : BC.clearForce t.vecs .u = t.vecs .u := by funext i; simp [BC.clearForce]
  unfold Implicit.evaluate
  have hf' : (barSolver S).force () () t.vecs t.a = .ok (b', f) := hf
  rw [hf']
  simp only [Outcome.ok_bind]
  rw [hap]
  simp only [Outcome.ok_bind]
  rw [hz]
  simp only [Outcome.ok_bind]
  refine ⟨_, rfl, rfl, hu, rfl, ?_, ?_, ?_, ?_, ?_, ?_⟩
  all_goals
    simp only [List.getD_cons_zero, List.getD_cons_succ, he, k0, k1, k2, k3, k4, k5, barNewmark]
    ring

/-- The step of the pair is solved exactly. -/
theorem bar_solve {S : Lps.Stored} (hS : Lps.SetUp (Lps.bar 0 0) Lps.barNbs S) (s : Implicit.State Unit Unit) :
    ∃ t, Implicit.solve barNewmark barEnv (barSolver S) s = .ok t ∧ t.norm = 0 := by
  have hbd : ¬ barNewmark.beta * (barNewmark.dt * barNewmark.dt) = 0 := by norm_num [barNewmark]
  obtain ⟨u2, hu2⟩ : ∃ u2, u2 = Implicit.knownU barNewmark s.vecs s.a := ⟨_, rfl⟩
  obtain ⟨v2, hv2⟩ : ∃ v2, v2 = Implicit.knownV barNewmark s.vecs s.a := ⟨_, rfl⟩
  have hplace : ∀ w u, ∃ t, Implicit.place barNewmark barEnv u2 v2 w u = .ok t ∧ t.vecs .u = u ∧ ∀ i, t.a i = 4 * (u i - u2 i) := by
    intro w u
    unfold Implicit.place
    rw [if_neg hbd]
    refine ⟨_, rfl, ?_, fun i => ?_⟩
    · simp [Explicit.setVec]
    · simp only [barNewmark]
      norm_num
      rw [mul_comm]
  unfold Implicit.solve
  rw [← hu2, ← hv2]
  obtain ⟨t1, h1, h1u, h1a⟩ := hplace s.vecs u2
  rw [h1]
  simp only [Outcome.ok_bind]
  obtain ⟨t2, h2, h2a, h2u, h2n, r0, r3, r1, r2, r4, r5⟩ := bar_evaluate hS s.time s.timePrevious t1
  have h2' : Implicit.evaluate barNewmark barEnv (barSolver S) s.N s.work s.time s.timePrevious t1 = .ok t2 := h2
  rw [h2']
  simp only [Outcome.ok_bind]
  have hfuel : (barNewmark.maxSolverIterations + 1).toNat = 10 + 1 := rfl
  rw [hfuel]
  unfold Implicit.iterate
  by_cases hn : barNewmark.absoluteTolerance < t2.norm
  · rw [if_pos hn]
    have hd : (barSolver S).direction s.N t2.work t2.trial.vecs t2.trial.a (fun i => -1.0 * t2.residual i) = .ok ((), fun i =>
      if i = 0 then 11 / 20 * (-1.0 * t2.residual 0) + 9 / 20 * (-1.0 * t2.residual 3)
      else if i = 3 then 9 / 20 * (-1.0 * t2.residual 0) + 11 / 20 * (-1.0 * t2.residual 3) else (-1.0 * t2.residual i)) := rfl
    rw [hd]
    simp only [Outcome.ok_bind]
    obtain ⟨t3, h3, h3u, h3a⟩ := hplace t2.trial.vecs (fun i => t2.trial.vecs .u i +
      if i = 0 then 11 / 20 * (-1.0 * t2.residual 0) + 9 / 20 * (-1.0 * t2.residual 3)
      else if i = 3 then 9 / 20 * (-1.0 * t2.residual 0) + 11 / 20 * (-1.0 * t2.residual 3) else (-1.0 * t2.residual i))
    rw [h3]
    simp only [Outcome.ok_bind]
    obtain ⟨t4, h4, h4a, h4u, h4n, q0, q3, q1, q2, q4, q5⟩ := bar_evaluate hS s.time s.timePrevious t3
    have h4' : Implicit.evaluate barNewmark barEnv (barSolver S) s.N () s.time s.timePrevious t3 = .ok t4 := h4
    rw [h4']
    simp only [Outcome.ok_bind]
    have hzero : t4.norm = 0 := by
      have e0 : t4.residual 0 = 0 := by
        rw [q0, h3a, h3u]; simp only [r0, r3, h2u, h1u, h1a]; norm_num; ring
      have e3 : t4.residual 3 = 0 := by
        rw [q3, h3a, h3u]; simp only [r0, r3, h2u, h1u, h1a]; norm_num; ring
      have e1 : t4.residual 1 = 0 := by
        rw [q1, h3a]; simp only [r1, h2u, h1u, h1a]; norm_num
      have e2 : t4.residual 2 = 0 := by
        rw [q2, h3a]; simp only [r2, h2u, h1u, h1a]; norm_num
      have e4 : t4.residual 4 = 0 := by
        rw [q4, h3a]; simp only [r4, h2u, h1u, h1a]; norm_num
      have e5 : t4.residual 5 = 0 := by
        rw [q5, h3a]; simp only [r5, h2u, h1u, h1a]; norm_num
      rw [h4n]
      unfold QuasiStatic.norm2
      simp [Finset.sum_range_succ, e0, e1, e2, e3, e4, e5]
    refine ⟨t4, ?_, hzero⟩
    unfold Implicit.iterate
    rw [if_neg (by rw [hzero]; exact lt_irrefl _)]
  · rw [if_neg hn]
    refine ⟨t2, rfl, le_antisymm (not_lt.1 hn) ?_⟩
    rw [h2n]
    exact Real.sqrt_nonneg _

/-- Runs of the pair exist, and all their steps converge. -/
theorem bar_run {S : Lps.Stored} (hS : Lps.SetUp (Lps.bar 0 0) Lps.barNbs S) (s0 : Implicit.State Unit Unit) :
    ∃ st : Nat → Implicit.State Unit Unit, st 0 = s0 ∧ (∀ m, Implicit.run barNewmark barEnv (barSolver S) s0 m = .ok (st m)) ∧
      ∀ m t, Implicit.solve barNewmark barEnv (barSolver S) (st m) = .ok t → t.norm = 0 := by
  have hex : ∀ m, ∃ s, Implicit.run barNewmark barEnv (barSolver S) s0 m = .ok s := by
    intro m
    induction m with
    | zero => exact ⟨s0, rfl⟩
    | succ m ih =>
      obtain ⟨s, hs⟩ := ih
      obtain ⟨t, ht, -⟩ := bar_solve hS s
      unfold Implicit.run
      rw [hs]
      simp only [Outcome.ok_bind]
      unfold Implicit.advance
      rw [ht]
      exact ⟨_, rfl⟩
  choose st hst using hex
  refine ⟨st, (BC.ok_inj (hst 0)).symm, hst, fun m t ht => ?_⟩
  obtain ⟨t', ht', h0⟩ := bar_solve hS (st m)
  rw [BC.ok_inj (ht.symm.trans ht')]
  exact h0

/-- The pair at rest, pulled apart by one. -/
def barState (a : Nat → ℝ) : Implicit.State Unit Unit :=
  { vecs := fun q i => if q = .u ∧ i = 3 then 1 else 0, a := a, time := 0, timePrevious := 0, N := (), work := () }

theorem barState_force {S : Lps.Stored} (hS : Lps.SetUp (Lps.bar 0 0) Lps.barNbs S) (a : Nat → ℝ) :
    ∃ F, LpsForce (Lps.bar 0 0) 1 1 S Lps.barNbs (fun t => t) ((barState a).vecs .u) F ∧ F 0 = ![18, 0, 0] ∧ F 1 = ![-18, 0, 0] := by
  obtain ⟨th, F, h⟩ := Lps.C135_defined (C := Lps.displaced (Lps.bar 0 0) (at3 ((barState a).vecs .u))) 1 1 (Lps.bar_ready hS) (fun t => t)
  obtain ⟨h0, h1⟩ := bar_displaced hS h
  exact ⟨F, ⟨th, h⟩, by rw [h0]; simp [at3, barState], by rw [h1]; simp [at3, barState]⟩

/-- The pair that begins with the accelerations of its forces meets the hypotheses of `C258_conserved_partial` and `C258_stable`. -/
example : ∃ (S : Lps.Stored) (st : Nat → Implicit.State Unit Unit) (F0 : Nat → V3), barNewmark.beta = 1 / 4 ∧ barNewmark.gamma = 1 / 2 ∧
    barNewmark.dt ≠ 0 ∧ barNewmark.absoluteTolerance = 0 ∧ barEnv.dofs = BC.dispOnly ∧ BC.makeConditions [] = .ok barEnv.cs ∧
    barEnv.C.owned.Nodup ∧ Lps.Sound (Lps.bar 0 0) 1 1 ∧ Lps.SetUp (Lps.bar 0 0) Lps.barNbs S ∧ Within Lps.barNbs Lps.barNbs.length ∧
    barEnv.C.owned.length = Lps.barNbs.length ∧ Solves (Lps.bar 0 0) 1 1 S Lps.barNbs (fun t => t) (barSolver S) ∧
    (∀ m, Implicit.run barNewmark barEnv (barSolver S) (st 0) m = .ok (st m)) ∧
    (∀ m t, Implicit.solve barNewmark barEnv (barSolver S) (st m) = .ok t → t.norm ≤ barNewmark.absoluteTolerance) ∧
    LpsForce (Lps.bar 0 0) 1 1 S Lps.barNbs (fun t => t) ((st 0).vecs .u) F0 ∧
    ∀ l < Lps.barNbs.length, barNewmark.density l • at3 (st 0).a l = F0 l := by
  obtain ⟨S, hS⟩ := Lps.setUp_exists (Lps.bar 0 0) Lps.barNbs
  obtain ⟨st, h0, h1, h2⟩ := bar_run hS (barState fun i => if i = 0 then 18 else if i = 3 then -18 else 0)
  obtain ⟨F, f1, f2, f3⟩ := barState_force hS (fun i => if i = 0 then 18 else if i = 3 then -18 else 0)
  refine ⟨S, st, F, rfl, rfl, by norm_num [barNewmark], rfl, rfl, rfl, by decide, bar_sound, hS, Lps.bar_within, rfl, barSolver_solves S,
    by rw [h0]; exact h1, fun m t h => (h2 m t h).le, by rw [h0]; exact f1, ?_⟩
  rw [h0]
  intro l hl
  match l, hl with
  | 0, _ =>
    rw [f2]
    funext k
    fin_cases k <;> simp [at3, barState, barNewmark]
  | 1, _ =>
    rw [f3]
    funext k
    fin_cases k <;> simp [at3, barState, barNewmark]

/-- **C258** is false for the first step: implicit dynamics takes the initial acceleration to be what the acceleration vector holds, zero in a
new analysis, instead of evaluating the initial forces.  A pair of points released from a stretched state loses nine tenths of its
energy in the first step, although the iteration converges to an exact solution. -/
theorem C258_first_step_loses : ∃ (P : Implicit.Params) (E : QuasiStatic.Env) (C : Config) (S : Lps.Stored) (nbs : List (List Nat))
    (T : Implicit.Solver Unit Unit) (vecs : BC.Vecs) (s0 s1 : Implicit.State Unit Unit) (F0 F1 : Nat → V3),
    P.beta = 1 / 4 ∧ P.gamma = 1 / 2 ∧ 0 < P.dt ∧ E.dofs = BC.dispOnly ∧ BC.makeConditions [] = .ok E.cs ∧ Lps.Sound C 1 1 ∧
    Lps.SetUp C nbs S ∧ Solves C 1 1 S nbs (fun t => t) T ∧ Implicit.start P E vecs (fun _ => 0) () () = .ok s0 ∧
    Implicit.run P E T s0 1 = .ok s1 ∧ (∀ t, Implicit.solve P E T s0 = .ok t → t.norm = 0) ∧
    LpsForce C 1 1 S nbs (fun t => t) (s0.vecs .u) F0 ∧ LpsForce C 1 1 S nbs (fun t => t) (s1.vecs .u) F1 ∧
    kinetic P.density C.v nbs.length (s0.vecs .v) + stored C.v nbs.length F0 (s0.vecs .u) = 9 ∧
    kinetic P.density C.v nbs.length (s1.vecs .v) + stored C.v nbs.length F1 (s1.vecs .u) = 9 / 10 := by
  obtain ⟨S, hS⟩ := Lps.setUp_exists (Lps.bar 0 0) Lps.barNbs
  obtain ⟨st, h0, h1, h2⟩ := bar_run hS (barState fun _ => 0)
  obtain ⟨F, f1, f2, f3⟩ := barState_force hS (fun _ => 0)
  have hcs : BC.makeConditions [] = .ok barEnv.cs := rfl
  obtain ⟨t, F', ht, g1, g2⟩ := C258_balance barNewmark barEnv rfl hcs (by decide) (Lps.bar 0 0) 1 1 S Lps.barNbs rfl (fun t => t) (barSolver S)
    (barSolver_solves S) (barState fun _ => 0) (st 0) (st 1) 0 (h1 0) (h1 1)
  have hmiss : ∀ l < 2, ∀ k : Fin 3, (st 1).a (l * 3 + k) = F' l k := by
    intro l hl k
    have := g2 l hl k
    rw [h2 0 t ht] at this
    have := abs_nonpos_iff.1 this
    simp only [barNewmark, missing] at this
    have e : (1 : ℝ) * (st 1).a (l * 3 + k) - F' l k = 0 := by
      have : (1 / 4 : ℝ) * 1 ^ 2 * (1 * (st 1).a (l * 3 + k) - F' l k) = 0 := this
      linarith
    linarith
  obtain ⟨s1, e1, -, -, hs⟩ := Implicit.C43_newmark barNewmark barEnv (barSolver S) [] hcs (barState fun _ => 0) 0 (st 1) (h1 1)
  have := BC.ok_inj (e1.symm.trans (show _ = Outcome.ok (barState fun _ => 0) from rfl))
  subst this
  have hu : ∀ i, (st 1).vecs .u i = (if i = 3 then 1 else 0) + 1 / 4 * (st 1).a i := by
    intro i
    rw [(hs i).1]
    simp [barNewmark, barState]
  have hv : ∀ i, (st 1).vecs .v i = 1 / 2 * (st 1).a i := by
    intro i
    rw [(hs i).2.1]
    simp [barNewmark, barState]
  obtain ⟨th, g1'⟩ := g1
  obtain ⟨k0, k1⟩ := bar_displaced hS g1'
  have m0 : (st 1).a 0 = 18 * ((st 1).vecs .u 3 - (st 1).vecs .u 0) := by exact (hmiss 0 (by norm_num) 0).trans (by rw [k0]; rfl)
  have m1 : (st 1).a 1 = 0 := by exact (hmiss 0 (by norm_num) 1).trans (by rw [k0]; rfl)
  have m2 : (st 1).a 2 = 0 := by exact (hmiss 0 (by norm_num) 2).trans (by rw [k0]; rfl)
  have m3 : (st 1).a 3 = -(18 * ((st 1).vecs .u 3 - (st 1).vecs .u 0)) := by exact (hmiss 1 (by norm_num) 0).trans (by rw [k1]; rfl)
  have m4 : (st 1).a 4 = 0 := by exact (hmiss 1 (by norm_num) 1).trans (by rw [k1]; rfl)
  have m5 : (st 1).a 5 = 0 := by exact (hmiss 1 (by norm_num) 2).trans (by rw [k1]; rfl)
  have u0 := hu 0
  have u3 := hu 3
  norm_num at u0 u3
  have a0 : (st 1).a 0 = 9 / 5 := by linarith
  have a3 : (st 1).a 3 = -(9 / 5) := by linarith
  refine ⟨barNewmark, barEnv, Lps.bar 0 0, S, Lps.barNbs, barSolver S, (barState fun _ => 0).vecs, barState fun _ => 0, st 1, F, F', rfl, rfl,
    by norm_num [barNewmark], rfl, rfl, bar_sound, hS, barSolver_solves S, ?_, h1 1, fun t ht => h2 0 t (by rw [h0]; exact ht), f1, ⟨th, g1'⟩, ?_, ?_⟩
  · have e : BC.clearForce (barState fun _ => 0).vecs = (barState fun _ => 0).vecs := by
      funext q i
      by_cases hq : q = .externalForce
      · subst hq; simp [BC.clearForce, barState]
      · simp [BC.clearForce, hq]
    have : Implicit.start barNewmark barEnv (barState fun _ => 0).vecs (fun _ => 0) () () =
      .ok { vecs := BC.clearForce (barState fun _ => 0).vecs, a := fun _ => 0, time := 0, timePrevious := 0, N := (), work := () } := rfl
    rw [this, e]
    rfl
  · have e : Lps.barNbs.length = 2 := rfl
    rw [e]
    unfold kinetic stored
    rw [Finset.sum_range_succ, Finset.sum_range_one, Finset.sum_range_succ, Finset.sum_range_one, f2, f3]
    simp [dotProduct, Fin.sum_univ_three, at3, barState, Lps.bar]
    norm_num
  · have e : Lps.barNbs.length = 2 := rfl
    rw [e]
    unfold kinetic stored
    have z0 : (st 1).vecs .u 0 = 9 / 20 := by rw [u0, a0]; norm_num
    have z3 : (st 1).vecs .u 3 = 11 / 20 := by rw [u3, a3]; norm_num
    rw [Finset.sum_range_succ, Finset.sum_range_one, Finset.sum_range_succ, Finset.sum_range_one, k0, k1]
    simp only [dotProduct, Fin.sum_univ_three, at3, Lps.bar, hv]
    simp [a0, a3, m1, m2, m4, m5, z0, z3, barNewmark]
    norm_num

end Verif.Conserve
