import Verif.Conserve.Lemmas
import Verif.Explicit.Props
import Verif.Body.Props
import Verif.Lps.CaseProps

/-! C255 and C256: angular momentum and energy in explicit dynamics. -/

noncomputable section

namespace Verif.Conserve

open Verif Verif.Neigh Verif.Mech Verif.Explicit

variable {σ : Type}

/-! ### C255 -/

/-- **C255** Explicit dynamics without boundary conditions and external forces conserves angular momentum exactly, for every step length and
any number of steps: if the forces of every evaluation have no moment about the positions for which they were evaluated, the angular
momentum of the positions and velocities after any number of steps is that of the initial ones. -/
theorem C255_angular (P : Params) (C : BC.Ctx) (cs : BC.Conditions) (hcs : BC.makeConditions [] = .ok cs)
    (eval : Eval σ) (V : Nat → ℝ) (N : Nat) (hlen : P.length = 3 * N) (hbal : Momentless eval V N)
    (vecs : BC.Vecs) (hy : ∀ i, vecs .y i = C.x i + vecs .u i) (b : σ) (s0 : State σ)
    (hi : initialStep P C cs eval vecs b = .ok s0) (n : Nat) (s : State σ) (h : run P C cs eval s0 n = .ok s) :
    angular P V N (s.vecs .y) (s.vecs .v) = angular P V N (vecs .y) (vecs .v) := by
  obtain ⟨hb0, hf0⟩ := no_conditions hcs
  suffices H : (∀ i, s.vecs .y i = C.x i + s.vecs .u i) ∧ angular P V N (s.vecs .y) s.a = 0 ∧
      angular P V N (s.vecs .y) (s.vecs .v) = angular P V N (vecs .y) (vecs .v) from H.2.2
  induction n generalizing s with
  | zero =>
    have := BC.ok_inj h
    subst this
    obtain ⟨_, w1, f, he, hb, hf, ha⟩ := initialStep_ok hi
    rw [hb0] at hb
    rw [hf0] at hf
    have e1 : vecs = w1 := BC.ok_inj hb
    have e2 : BC.clearForce w1 = s0.vecs := BC.ok_inj hf
    obtain ⟨hd, ha⟩ := acceleration_ok ha
    have ev : ∀ t, t ≠ BC.Target.externalForce → s0.vecs t = vecs t := by
      intro t ht
      rw [← e2, ← e1]
      funext i
      simp [BC.clearForce, ht]
    rw [ev .y (by decide), ev .u (by decide), ev .v (by decide)]
    refine ⟨hy, momentless_acceleration hlen hd (f := f) (fun i => ?_) (hbal _ _ _ _ _ he), rfl⟩
    rw [ha, ← e2]
    simp [BC.clearForce]
  | succ n ih =>
    obtain ⟨s1, h1, h2⟩ := run_succ h
    obtain ⟨i1, i2, i3⟩ := ih s1 h1
    obtain ⟨w, f, he, hu, hyw, hd, ha, hu', hy', hv⟩ := advance_free hcs h2
    have z : angular P V N (s.vecs .y) s.a = 0 := by
      have := momentless_acceleration hlen hd ha (hbal _ _ _ _ _ he)
      rw [funext hy']
      exact this
    refine ⟨fun i => by rw [hy', hyw, hu'], z, ?_⟩
    have hyn : ∀ l, at3 (s.vecs .y) l = at3 (s1.vecs .y) l + P.dt • (at3 (s1.vecs .v) l + (P.dt / 2) • at3 s1.a l) := by
      intro l
      funext k
      show s.vecs .y (l * 3 + k) = s1.vecs .y (l * 3 + k) + P.dt * (s1.vecs .v (l * 3 + k) + P.dt / 2 * s1.a (l * 3 + k))
      rw [hy', hyw, hu, i1]
      ring
    have hvn : ∀ l, at3 (s.vecs .v) l = at3 (s1.vecs .v) l + (P.dt / 2) • at3 s1.a l + (P.dt / 2) • at3 s.a l := by
      intro l
      funext k
      show s.vecs .v (l * 3 + k) = s1.vecs .v (l * 3 + k) + P.dt / 2 * s1.a (l * 3 + k) + P.dt / 2 * s.a (l * 3 + k)
      rw [hv]
    have key : angular P V N (s.vecs .y) (s.vecs .v) = angular P V N (s1.vecs .y) (s1.vecs .v) +
        (P.dt / 2) • angular P V N (s1.vecs .y) s1.a + (P.dt / 2) • angular P V N (s.vecs .y) s.a := by
      unfold angular
      rw [Finset.smul_sum, Finset.smul_sum, ← Finset.sum_add_distrib, ← Finset.sum_add_distrib]
      refine Finset.sum_congr rfl fun l _ => ?_
      rw [hvn, hyn, cross_step]
      module
    rw [key, i2, z, smul_zero, add_zero, add_zero, i3]

/-- A point held by a spring at the origin turns about it with constant angular momentum. -/
example : Momentless spring (fun _ => 1) 1 ∧ ∃ s0 s, BC.makeConditions [] = .ok {} ∧
    initialStep demoParams oneNode {} spring (fun t i => if i = 0 ∧ (t = .u ∨ t = .y) then 1 else if i = 1 ∧ t = .v then 2 else 0) () = .ok s0 ∧
    run demoParams oneNode {} spring s0 5 = .ok s := by
  constructor
  · intro b n w b' f h
    have e : f = fun i => - w .y i := (Prod.ext_iff.1 (Outcome.ok.inj h)).2.symm
    have : at3 f 0 = -at3 (w .y) 0 := by rw [e]; rfl
    rw [Finset.sum_range_one, this, map_neg, cross_self, neg_zero, smul_zero]
  · obtain ⟨s0, h1, h2, h3⟩ := demo_free (fun t i => if i = 0 ∧ (t = .u ∨ t = .y) then 1 else if i = 1 ∧ t = .v then 2 else 0)
    obtain ⟨s, hs⟩ := h3 s0 5
    exact ⟨s0, s, h1, h2, hs⟩

open Verif.Body in
/-- **C255** for bodies divided into blocks and distributed over processors in any way, each block with any of the modelled materials, damage
and other internal variables evolving in any way: the angular momentum after any number of steps is that of the initial positions and
velocities.  The force vector is the assembled internal force, in the order in which the processors own the points `ids`, and the
blocks work with the current positions. -/
theorem C255_body (P : Params) (C : BC.Ctx) (cs : BC.Conditions) (hcs : BC.makeConditions [] = .ok cs) (V : Nat → ℝ) (ids : List Nat)
    (hlen : P.length = 3 * ids.length) (eval : Eval σ)
    (heval : ∀ b n w b' f, eval b n w = .ok (b', f) → ∃ (Y : Nat → V3) (global : Assembly.Dist V3)
      (blocks : List BodyBlock), Decomposition global blocks ∧
      (∀ b ∈ blocks, ∀ p ∈ b.pieces, p.Valid V Y) ∧
      (global.flatMap fun part => part.map Prod.fst) = ids ∧
      (∀ l < ids.length, Y (ids.getD l 0) = at3 (w .y) l) ∧
      ∀ l e, (internalForce global blocks).flatten[l]? = some e → at3 f l = e.2)
    (vecs : BC.Vecs) (hy : ∀ i, vecs .y i = C.x i + vecs .u i) (b : σ) (s0 : State σ)
    (hi : initialStep P C cs eval vecs b = .ok s0) (n : Nat) (s : State σ) (h : run P C cs eval s0 n = .ok s) :
    angular P (fun l => V (ids.getD l 0)) ids.length (s.vecs .y) (s.vecs .v) =
      angular P (fun l => V (ids.getD l 0)) ids.length (vecs .y) (vecs .v) := by
  refine C255_angular P C cs hcs eval _ ids.length hlen ?_ vecs hy b s0 hi n s h
  intro b n w b' f he
  obtain ⟨Y, global, blocks, hd, hv, hids, hY, hf⟩ := heval b n w b' f he
  have h0 := C66_moment V Y global blocks hd hv
  have hflat : resultantMoment V Y (internalForce global blocks) =
      ((internalForce global blocks).flatten.map fun e => V e.1 • crossProduct (Y e.1) e.2).sum := by
    unfold resultantMoment
    induction internalForce global blocks with
    | nil => rfl
    | cons a f ih => rw [List.map_cons, List.sum_cons, ih, List.flatten_cons, List.map_append, List.sum_append]
  rw [hflat] at h0
  have hfl : ((internalForce global blocks).flatten.map Prod.fst) = ids := by
    rw [internalForce_entries global blocks hd, ← hids, ← List.flatMap_def, List.map_flatMap]
    congr 1
    funext part
    rw [List.map_map]
    rfl
  funext c
  have h0 := congrFun h0 c
  rw [sum_list_range] at h0
  rw [Finset.sum_apply]
  have hlen' : (internalForce global blocks).flatten.length = ids.length := by rw [← hfl, List.length_map]
  rw [← hlen']
  refine Eq.trans (Finset.sum_congr rfl fun l hl => ?_) h0
  have hl := Finset.mem_range.mp hl
  have e := hf l _ (List.getElem?_eq_getElem hl)
  have e1 : ids.getD l 0 = (internalForce global blocks).flatten[l].1 := by
    rw [← hfl, getD_of_lt _ (by rw [List.length_map]; exact hl), List.getElem_map]
  show (V (ids.getD l 0) • crossProduct (at3 (w .y) l) (at3 f l)) c = _
  rw [e, ← hY l (by rw [← hlen']; exact hl), e1, getD_of_lt' _ hl]

open Verif.Body in
/-- The body of `demo_body` with the forces of its deformed state meets the hypotheses of `C255_body`. -/
example : ∃ (f y : Nat → ℝ) (Y : Nat → V3) (global : Assembly.Dist V3) (blocks : List BodyBlock),
    Decomposition global blocks ∧ (∀ b ∈ blocks, ∀ p ∈ b.pieces, p.Valid demo.v Y) ∧
    (global.flatMap fun part => part.map Prod.fst) = [0, 1, 2] ∧
    (∀ l < [0, 1, 2].length, Y ([0, 1, 2].getD l 0) = at3 y l) ∧
    ∀ l e, (internalForce global blocks).flatten[l]? = some e → at3 f l = e.2 := by
  obtain ⟨F0, F1, global, blocks, hg, hb, h1, h2⟩ := demo_body
  have e2 : ∀ (l : Nat) (k : Fin 3), (⟨(l * 3 + (k : Nat)) % 3, by omega⟩ : Fin 3) = k := by
    intro l k
    apply Fin.ext; have := k.isLt; show (l * 3 + (k : Nat)) % 3 = k; omega
  have e1 : ∀ (l : Nat) (k : Fin 3), (l * 3 + (k : Nat)) / 3 = l := by
    intro l k
    have := k.isLt; omega
  refine ⟨fun i => ((internalForce global blocks).flatten.getD (i / 3) (0, 0)).2 ⟨i % 3, by omega⟩,
    fun i => demo.y (i / 3) ⟨i % 3, by omega⟩, demo.y, global, blocks, h1, h2, by rw [hg]; rfl, ?_, ?_⟩
  · intro l hl
    have : [0, 1, 2].getD l 0 = l := by
      match l, hl with
      | 0, _ => rfl
      | 1, _ => rfl
      | 2, _ => rfl
    rw [this]
    funext k
    simp only [at3, e1, e2]
  · intro l e he
    funext k
    simp only [at3, e1, e2]
    rw [List.getD_eq_getElem?_getD, he]
    rfl

/-! ### C256 -/

/-- What holds after every step of a free run with the linear LPS material. -/
theorem lps_parts {P : Params} {X : BC.Ctx} {cs : BC.Conditions} (hcs : BC.makeConditions [] = .ok cs) {eval : Eval σ} {C : Config} {K mu : ℝ}
    {S : Lps.Stored} {nbs : List (List Nat)} {ghost : (Nat → ℝ) → Nat → ℝ} (hlen : P.length = 3 * nbs.length)
    (hL : LinearLps C K mu S nbs ghost eval) {vecs : BC.Vecs} {b : σ} {s0 : State σ} (hi : initialStep P X cs eval vecs b = .ok s0) {n : Nat}
    {s : State σ} (h : run P X cs eval s0 n = .ok s) :
    ∃ theta F, Lps.evaluate (Lps.displaced C (at3 (s.vecs .u))) .cells K mu S nbs.length (encode nbs) ghost = .ok (theta, F) ∧
      (∀ d, inner P C.v nbs.length s.a d = Energy.power C F (at3 d) nbs.length) ∧ ∀ l < nbs.length, F l = P.density l • at3 s.a l := by
  obtain ⟨hb0, hf0⟩ := no_conditions hcs
  cases n with
  | zero =>
    have := BC.ok_inj h
    subst this
    obtain ⟨_, w1, f, he, hb, hf, ha⟩ := initialStep_ok hi
    rw [hb0] at hb
    rw [hf0] at hf
    have e1 : vecs = w1 := BC.ok_inj hb
    have e2 : BC.clearForce w1 = s0.vecs := BC.ok_inj hf
    obtain ⟨hd, ha⟩ := acceleration_ok ha
    obtain ⟨theta, F, h1, h2⟩ := hL _ _ _ _ _ he
    have eu : s0.vecs .u = vecs .u := by rw [← e2, ← e1]; funext i; simp [BC.clearForce]
    have hF := force_acceleration hlen hd (f := f) (a := s0.a) (fun i => by rw [ha, ← e2]; simp [BC.clearForce]) h2
    exact ⟨theta, F, by rw [eu]; exact h1, inner_power hF, hF⟩
  | succ n =>
    obtain ⟨s1, h1, h2⟩ := run_succ h
    obtain ⟨w, f, he, hu, hyw, hd, ha, hu', hy', hv⟩ := advance_free hcs h2
    obtain ⟨theta, F, h3, h4⟩ := hL _ _ _ _ _ he
    have hF := force_acceleration hlen hd ha h4
    refine ⟨theta, F, ?_, inner_power hF, hF⟩
    rw [funext hu']
    exact h3

/-- **C256** For the linear LPS material explicit dynamics conserves energy: kinetic energy plus stored energy minus `dt²/8` times the sum of
mass times squared acceleration is the same after every step, for every step length. -/
theorem C256_conserved (P : Params) (X : BC.Ctx) (cs : BC.Conditions) (hcs : BC.makeConditions [] = .ok cs) (eval : Eval σ) (C : Config)
    (K mu : ℝ) (S : Lps.Stored) (nbs : List (List Nat)) (hN : Within nbs nbs.length) (ghost : (Nat → ℝ) → Nat → ℝ)
    (hlen : P.length = 3 * nbs.length) (hL : LinearLps C K mu S nbs ghost eval) (vecs : BC.Vecs) (b : σ) (s0 : State σ)
    (hi : initialStep P X cs eval vecs b = .ok s0) (n : Nat) (s : State σ) (h : run P X cs eval s0 n = .ok s) :
    shadowEnergy P C.v nbs.length s = shadowEnergy P C.v nbs.length s0 := by
  induction n generalizing s with
  | zero => rw [BC.ok_inj h]
  | succ n ih =>
    obtain ⟨s1, h1, h2⟩ := run_succ h
    rw [← ih s1 h1]
    obtain ⟨t, F, a1, a2, -⟩ := lps_parts hcs hlen hL hi h
    obtain ⟨t', F', b1, b2, -⟩ := lps_parts hcs hlen hL hi h1
    have hrec : inner P C.v nbs.length s.a (s1.vecs .u) = inner P C.v nbs.length s1.a (s.vecs .u) := by
      rw [a2, b2]
      exact Lps.C136_reciprocal a1 b1 hN
    obtain ⟨w, f, he, hu, hyw, hd, ha, hu', hy', hv⟩ := advance_free hcs h2
    have eu : s.vecs .u = fun i => s1.vecs .u i + P.dt * (s1.vecs .v i + P.dt / 2 * s1.a i) := by
      funext i
      rw [hu', hu]
    have ev : s.vecs .v = fun i => (s1.vecs .v i + P.dt / 2 * s1.a i) + P.dt / 2 * s.a i := by
      funext i
      rw [hv]
    rw [eu, inner_add_right, inner_add_right] at hrec
    unfold shadowEnergy
    rw [eu, ev]
    simp only [inner_add, inner_add_right]
    have c1 := inner_comm P C.v nbs.length (s1.vecs .v) s1.a
    have c2 := inner_comm P C.v nbs.length (s1.vecs .v) s.a
    have c3 := inner_comm P C.v nbs.length s1.a s.a
    rw [c1, c2, c3]
    rw [inner_comm P C.v nbs.length s1.a s.a] at *
    linear_combination (-(1 / 2)) * hrec

/-- **C256** Below the limit the step is stable: if the step length times the largest frequency of the body is at most two, then after
any number of steps the kinetic energy is at most the sum of the initial kinetic and stored energies. -/
theorem C256_stable (P : Params) (X : BC.Ctx) (cs : BC.Conditions) (hcs : BC.makeConditions [] = .ok cs) (eval : Eval σ) (C : Config)
    (K mu : ℝ) (hC : Lps.Sound C K mu) (S : Lps.Stored) (nbs : List (List Nat)) (hS : Lps.SetUp C nbs S) (hN : Within nbs nbs.length)
    (ghost : (Nat → ℝ) → Nat → ℝ) (hlen : P.length = 3 * nbs.length) (hr : ∀ l < nbs.length, 0 < P.density l)
    (hL : LinearLps C K mu S nbs ghost eval) (w2 : ℝ) (hw : 0 < w2) (hF : FrequencyBound P C K mu S nbs ghost w2) (hdt : P.dt ^ 2 * w2 ≤ 4)
    (vecs : BC.Vecs) (b : σ) (s0 : State σ) (hi : initialStep P X cs eval vecs b = .ok s0) (n : Nat) (s : State σ)
    (h : run P X cs eval s0 n = .ok s) :
    1 / 2 * inner P C.v nbs.length (s.vecs .v) (s.vecs .v) ≤
      1 / 2 * inner P C.v nbs.length (s0.vecs .v) (s0.vecs .v) - 1 / 2 * inner P C.v nbs.length s0.a (s0.vecs .u) := by
  have hcons := C256_conserved P X cs hcs eval C K mu S nbs hN ghost hlen hL vecs b s0 hi n s h
  obtain ⟨t, F, a1, a2, -⟩ := lps_parts hcs hlen hL hi h
  have hnn : ∀ v, 0 ≤ inner P C.v nbs.length v v :=
    inner_nonneg (fun l _ => (hC.volume l).le) fun l hl => (hr l hl).le
  -- the accelerations as a displacement
  obtain ⟨t', F', b1⟩ : ∃ t' F', Lps.evaluate (Lps.displaced C (at3 s.a)) .cells K mu S nbs.length (encode nbs) ghost = .ok (t', F') :=
    Lps.evaluate_defined (C := Lps.displaced C (at3 s.a)) K mu (Lps.evaluate_parts a1).2.1 ghost
  obtain ⟨t'', G, g1, -, g2⟩ := Lps.C136_linear a1 b1 1 (1 / w2)
  have hq := (Lps.C136_resists hC hS g1 hN).1
  have hG : Energy.power C G (fun k => (1 : ℝ) • at3 (s.vecs .u) k + (1 / w2) • at3 s.a k) nbs.length =
      Energy.power C F (at3 (s.vecs .u)) nbs.length + 1 / w2 * Energy.power C F (at3 s.a) nbs.length +
      1 / w2 * (Energy.power C F' (at3 (s.vecs .u)) nbs.length + 1 / w2 * Energy.power C F' (at3 s.a) nbs.length) := by
    unfold Energy.power
    rw [Finset.mul_sum, Finset.mul_sum, ← Finset.sum_add_distrib, ← Finset.sum_add_distrib, Finset.mul_sum, ← Finset.sum_add_distrib]
    refine Finset.sum_congr rfl fun k _ => ?_
    rw [g2 k]
    simp only [dotProduct_add, add_dotProduct, smul_dotProduct, dotProduct_smul, smul_eq_mul]
    ring
  rw [hG, ← Lps.C136_reciprocal a1 b1 hN, ← a2, ← a2] at hq
  have hf := hF (at3 s.a) t' F' b1
  have hf : -Energy.power C F' (at3 s.a) nbs.length ≤ w2 * inner P C.v nbs.length s.a s.a := hf
  generalize Energy.power C F' (at3 s.a) nbs.length = p at *
  have h1 := hnn s.a
  have h2 := hnn s0.a
  unfold shadowEnergy at hcons
  generalize inner P C.v nbs.length s.a s.a = A at *
  generalize inner P C.v nbs.length s.a (s.vecs .u) = B at *
  generalize inner P C.v nbs.length s0.a s0.a = A0 at *
  have h3 : 1 / w2 * (1 / w2 * -p) ≤ 1 / w2 * A := by
    refine mul_le_mul_of_nonneg_left ?_ (by positivity)
    have := mul_le_mul_of_nonneg_left hf (by positivity : (0 : ℝ) ≤ 1 / w2)
    refine this.trans (le_of_eq ?_)
    field_simp
  have h4 : 1 / w2 * A ≤ -B := by nlinarith
  have h5 : A ≤ w2 * -B := by
    have := mul_le_mul_of_nonneg_left h4 hw.le
    rw [← mul_assoc, mul_one_div_cancel hw.ne', one_mul] at this
    exact this
  have hB : 0 ≤ -B := le_trans (by positivity) h4
  have h6 : P.dt ^ 2 * A ≤ 4 * -B := by
    calc P.dt ^ 2 * A ≤ P.dt ^ 2 * (w2 * -B) := mul_le_mul_of_nonneg_left h5 (sq_nonneg _)
      _ = (P.dt ^ 2 * w2) * -B := by ring
      _ ≤ 4 * -B := mul_le_mul_of_nonneg_right hdt hB
  have h7 : 0 ≤ P.dt ^ 2 * A0 := mul_nonneg (sq_nonneg _) h2
  nlinarith

/-- Explicit evaluation of the linear LPS material for two points at distance one, with moduli one. -/
def barEval (S : Lps.Stored) : Eval Unit := fun _ _ w =>
  match Lps.evaluate (Lps.displaced (Lps.bar 0 0) (at3 (w .u))) .cells 1 1 S Lps.barNbs.length (encode Lps.barNbs) (fun t => t) with
  | .ok (_, F) => .ok ((), fun i => F (i / 3) ⟨i % 3, by omega⟩)
  | .fail e => .fail e
  | .ub => .ub

theorem barEval_lps (S : Lps.Stored) : LinearLps (Lps.bar 0 0) 1 1 S Lps.barNbs (fun t => t) (barEval S) := by
  intro b n w b' f h
  unfold barEval at h
  split at h
  · next th F hF =>
    refine ⟨th, F, hF, fun l _ => ?_⟩
    have e := (Prod.ext_iff.1 (Outcome.ok.inj h)).2
    simp only at e
    rw [← e]
    funext k
    have e1 : (l * 3 + (k : Nat)) / 3 = l := by have := k.isLt; omega
    have e2 : (⟨(l * 3 + (k : Nat)) % 3, by omega⟩ : Fin 3) = k := by
      apply Fin.ext; have := k.isLt; show (l * 3 + (k : Nat)) % 3 = k; omega
    simp only [at3, e1, e2]
  · cases h
  · cases h

theorem barEval_defined {S : Lps.Stored} (hS : Lps.SetUp (Lps.bar 0 0) Lps.barNbs S) (b : Unit) (n : Nat) (w : BC.Vecs) :
    ∃ b' f, barEval S b n w = .ok (b', f) := by
  obtain ⟨th, F, h⟩ := Lps.C135_defined (C := Lps.displaced (Lps.bar 0 0) (at3 (w .u))) 1 1 (Lps.bar_ready hS) (fun t => t)
  unfold barEval
  rw [h]
  exact ⟨_, _, rfl⟩

/-- Unit density, steps of length `dt`. -/
def barParams (dt : ℝ) : Params := { dt := dt, timeInitial := 0, timeFinal := 1, density := fun _ => 1, length := 6 }

/-- The two points. -/
def barCtx : BC.Ctx := { owned := [0, 1], sets := fun _ => none, x := fun i => if i = 3 then 1 else 0 }

theorem bar_sound : Lps.Sound (Lps.bar 0 0) 1 1 :=
  ⟨one_pos, one_pos, fun _ => one_pos, fun _ _ => zero_le_one, fun _ => ⟨le_refl _, zero_le_one⟩⟩

theorem bar_displaced {S : Lps.Stored} (hS : Lps.SetUp (Lps.bar 0 0) Lps.barNbs S) {u : Nat → V3} {theta : Nat → ℝ} {F : Nat → V3}
    (h : Lps.evaluate (Lps.displaced (Lps.bar 0 0) u) .cells 1 1 S Lps.barNbs.length (encode Lps.barNbs) (fun t => t) = .ok (theta, F)) :
    F 0 = ![18 * (u 1 0 - u 0 0), 0, 0] ∧ F 1 = ![-(18 * (u 1 0 - u 0 0)), 0, 0] := by
  have hS' : Lps.SetUp (Lps.bar (fun k => (Lps.bar 0 0).x k + u k) 0) Lps.barNbs S := hS
  obtain ⟨h1, h2⟩ := Lps.bar_force (y := fun k => (Lps.bar 0 0).x k + u k) hS' h
  have e : ((Lps.bar 0 0).x 1 + u 1) 0 - ((Lps.bar 0 0).x 0 + u 0) 0 - 1 = u 1 0 - u 0 0 := by
    simp [Lps.bar]
    ring
  rw [e, mul_one] at h1 h2
  exact ⟨h1, h2⟩

theorem bar_frequency {S : Lps.Stored} (hS : Lps.SetUp (Lps.bar 0 0) Lps.barNbs S) (dt : ℝ) :
    FrequencyBound (barParams dt) (Lps.bar 0 0) 1 1 S Lps.barNbs (fun t => t) 36 := by
  intro u th F h
  obtain ⟨h0, h1⟩ := bar_displaced hS h
  have e : Lps.barNbs.length = 2 := rfl
  rw [e]
  unfold Energy.power
  rw [Finset.sum_range_succ, Finset.sum_range_one, Finset.sum_range_succ, Finset.sum_range_one, h0, h1]
  simp only [dotProduct, Fin.sum_univ_three, barParams, Lps.bar, Matrix.cons_val_zero, Matrix.cons_val_one, Matrix.cons_val]
  nlinarith [sq_nonneg (u 1 0 + u 0 0), sq_nonneg (u 0 1), sq_nonneg (u 0 2), sq_nonneg (u 1 1), sq_nonneg (u 1 2)]

/-- The stretched pair of points meets the hypotheses of C256. -/
example : ∃ S s0 s, Lps.Sound (Lps.bar 0 0) 1 1 ∧ Lps.SetUp (Lps.bar 0 0) Lps.barNbs S ∧ Within Lps.barNbs Lps.barNbs.length ∧
    (barParams (1 / 4)).length = 3 * Lps.barNbs.length ∧ LinearLps (Lps.bar 0 0) 1 1 S Lps.barNbs (fun t => t) (barEval S) ∧
    FrequencyBound (barParams (1 / 4)) (Lps.bar 0 0) 1 1 S Lps.barNbs (fun t => t) 36 ∧ (barParams (1 / 4)).dt ^ 2 * 36 ≤ 4 ∧
    initialStep (barParams (1 / 4)) barCtx {} (barEval S) (fun t i => if t = .u ∧ i = 3 then 1 else 0) () = .ok s0 ∧
    run (barParams (1 / 4)) barCtx {} (barEval S) s0 7 = .ok s := by
  obtain ⟨S, hS⟩ := Lps.setUp_exists (Lps.bar 0 0) Lps.barNbs
  obtain ⟨⟨s0, h1⟩, h2⟩ := explicit_defined (barParams (1 / 4)) barCtx {} (barEval S) (by intro c hc; simp at hc) (by intro c hc; simp at hc)
    (fun _ _ => by simp [barParams]) (barEval_defined hS) (fun t i => if t = .u ∧ i = 3 then 1 else 0) ()
  obtain ⟨s, hs⟩ := h2 s0 7
  exact ⟨S, s0, s, bar_sound, hS, Lps.bar_within, rfl, barEval_lps S, bar_frequency hS _, by norm_num [barParams], h1, hs⟩

end Verif.Conserve
