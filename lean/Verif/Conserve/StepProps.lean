import Verif.Conserve.Props
import Verif.Outputs.TimeStepProps

/-! C257: the critical time step and stability. -/

noncomputable section

namespace Verif.Conserve

open Verif Verif.Neigh Verif.Mech Verif.Explicit

/-- The two points as a block of the mesh, for the estimate of the time step. -/
def barBlock : Outputs.MeshBlock :=
  { density := 1, bulk := 1, horizon := fun _ => 2, vol := (Lps.bar 0 0).v, x := (Lps.bar 0 0).x, parts := [⟨[0, 1], Lps.barNbs⟩] }

theorem barBlock_hoods : Tangent.allHoods barBlock.parts = [[0, 1], [1, 0]] := by
  simp [Tangent.allHoods, barBlock, Tangent.Part.hoods, Tangent.Part.hood, Lps.barNbs]

theorem barBlock_regular : barBlock.Regular := by
  refine ⟨by simp [barBlock], by simp [barBlock], by simp [barBlock], by simp [barBlock, Lps.bar], by simp [barBlock], ?_, ?_⟩
  · intro P hP
    simp only [barBlock, List.mem_cons, List.not_mem_nil, or_false] at hP
    subst hP
    simp [Tangent.Part.Valid, Within, Lps.barNbs]
  · rw [barBlock_hoods]
    intro h hh p ns e j hj
    simp only [List.mem_cons, List.not_mem_nil, or_false] at hh
    rcases hh with rfl | rfl <;> cases e <;> simp only [List.mem_cons, List.not_mem_nil, or_false] at hj <;> subst hj <;>
      intro he <;> have := congrFun he 0 <;> simp [barBlock, Lps.bar] at this

theorem barBlock_step {s : ℝ} (h0 : 1 / 2 ≤ s) : ∃ t, Outputs.explicitStep none (some s) ([barBlock].map Outputs.MeshBlock.pieces) = .ok t ∧
    1 ≤ t ^ 2 := by
  obtain ⟨t, ht, hp, hl, hm⟩ := Outputs.C56_critical_step (run := [barBlock]) (by simpa using barBlock_regular)
  have hest : ∀ p ns, p :: ns ∈ Tangent.allHoods barBlock.parts → barBlock.estimate p ns ^ 2 = 16 * Real.pi / 9 := by
    intro p ns h
    rw [barBlock_hoods] at h
    have hpi := Real.pi_pos
    simp only [List.mem_cons, List.not_mem_nil, or_false] at h
    have hlen : len ((Lps.bar 0 0).x 0 - (Lps.bar 0 0).x 1) = 1 ∧ len ((Lps.bar 0 0).x 1 - (Lps.bar 0 0).x 0) = 1 := by
      simp [len, Lps.bar]
    have hv : (2 : ℝ) * 1 / (1 * (18 * 1 / (Real.pi * 2 ^ 4)) / 1) = 16 * Real.pi / 9 := by field_simp; norm_num
    unfold Outputs.MeshBlock.estimate
    rcases h with h | h
    · obtain ⟨rfl, rfl⟩ := List.cons.inj h
      rw [List.map_singleton, List.sum_singleton]
      show Real.sqrt (2 * 1 / (1 * (18 * 1 / (Real.pi * 2 ^ 4)) / len ((Lps.bar 0 0).x 0 - (Lps.bar 0 0).x 1))) ^ 2 = _
      rw [hlen.1, hv, Real.sq_sqrt (by positivity)]
    · obtain ⟨rfl, rfl⟩ := List.cons.inj h
      rw [List.map_singleton, List.sum_singleton]
      show Real.sqrt (2 * 1 / (1 * (18 * 1 / (Real.pi * 2 ^ 4)) / len ((Lps.bar 0 0).x 1 - (Lps.bar 0 0).x 0))) ^ 2 = _
      rw [hlen.2, hv, Real.sq_sqrt (by positivity)]
  have ht2 : 4 ≤ t ^ 2 := by
    rcases hm with rfl | ⟨B, hB, p, ns, -, hmem, rfl⟩
    · norm_num
    · rw [List.mem_singleton] at hB
      subst hB
      rw [hest p ns hmem]
      have := Real.pi_gt_three
      linarith
  refine ⟨t * s, ?_, ?_⟩
  · rw [Outputs.explicitStep, ht, Outcome.ok_bind]
  · rw [mul_pow]
    have : (1 / 4 : ℝ) ≤ s ^ 2 := by nlinarith
    nlinarith

/-- **C257** is false for the linear LPS material: with the critical time step that the code computes, times any safety factor of at least
one half, two bonded points that are pulled apart by any amount, however small, fly apart: their distance grows beyond every bound. -/
theorem C257_unstable (s : ℝ) (hs : 1 / 2 ≤ s) : ∃ (B : Outputs.MeshBlock) (C : Config) (nbs : List (List Nat)) (S : Lps.Stored) (P : Params)
    (X : BC.Ctx) (eval : Eval Unit), B.Regular ∧ Lps.Sound C B.bulk 1 ∧ Lps.SetUp C nbs S ∧
    B.x = C.x ∧ B.vol = C.v ∧ (∀ x, B.horizon x = C.horizon) ∧ (∀ l, P.density l = B.density) ∧ Tangent.allHoods B.parts = [[0, 1], [1, 0]] ∧
    nbs = [[1], [0]] ∧ LinearLps C B.bulk 1 S nbs (fun t => t) eval ∧
    Outputs.explicitStep none (some s) ([B].map Outputs.MeshBlock.pieces) = .ok P.dt ∧
    ∀ vecs : BC.Vecs, (∀ i, vecs .v i = 0) → vecs .u 3 - vecs .u 0 ≠ 0 → ∃ s0, initialStep P X {} eval vecs () = .ok s0 ∧
      ∀ M : ℝ, ∃ n s', run P X {} eval s0 n = .ok s' ∧ M < |s'.vecs .u 3 - s'.vecs .u 0| := by
  obtain ⟨t, ht, ht1⟩ := barBlock_step hs
  obtain ⟨S, hS⟩ := Lps.setUp_exists (Lps.bar 0 0) Lps.barNbs
  refine ⟨barBlock, Lps.bar 0 0, Lps.barNbs, S, barParams t, barCtx, barEval S, barBlock_regular, bar_sound, hS, rfl, rfl, fun _ => rfl,
    fun _ => rfl, barBlock_hoods, rfl, barEval_lps S, ht, fun vecs hv hu => ?_⟩
  obtain ⟨⟨s0, h1⟩, h2⟩ := explicit_defined (barParams t) barCtx {} (barEval S) (by intro c hc; simp at hc) (by intro c hc; simp at hc)
    (fun _ _ => by simp [barParams]) (barEval_defined hS) vecs ()
  refine ⟨s0, h1, ?_⟩
  have hcs : BC.makeConditions [] = .ok {} := rfl
  -- the stretch and its rate
  have hacc : ∀ n s', run (barParams t) barCtx {} (barEval S) s0 n = .ok s' →
      s'.a 3 - s'.a 0 = -36 * (s'.vecs .u 3 - s'.vecs .u 0) := by
    intro n s' h
    obtain ⟨th, F, e1, -, e2⟩ := lps_parts hcs (show (barParams t).length = 3 * Lps.barNbs.length from rfl) (barEval_lps S) h1 h
    obtain ⟨f0, f1⟩ := bar_displaced hS e1
    have g0 := congrFun (e2 0 (by decide)) 0
    have g1 := congrFun (e2 1 (by decide)) 0
    rw [f0] at g0
    rw [f1] at g1
    have g0 : 18 * (s'.vecs .u 3 - s'.vecs .u 0) = 1 * s'.a 0 := g0
    have g1 : -(18 * (s'.vecs .u 3 - s'.vecs .u 0)) = 1 * s'.a 3 := g1
    linarith
  have hinit : s0.vecs .u = vecs .u ∧ s0.vecs .v = vecs .v := by
    obtain ⟨hb0, hf0⟩ := no_conditions hcs
    obtain ⟨_, w1, f, he, hb, hf, ha⟩ := initialStep_ok h1
    rw [hb0] at hb
    rw [hf0] at hf
    have e1 : vecs = w1 := BC.ok_inj hb
    have e2 : BC.clearForce w1 = s0.vecs := BC.ok_inj hf
    rw [← e2, ← e1]
    exact ⟨by funext i; simp [BC.clearForce], by funext i; simp [BC.clearForce]⟩
  have key : ∀ n s', run (barParams t) barCtx {} (barEval S) s0 n = .ok s' →
      (s'.vecs .u 3 - s'.vecs .u 0) * (t * (s'.vecs .v 3 - s'.vecs .v 0)) ≤ 0 ∧
      2 ^ n * |vecs .u 3 - vecs .u 0| ≤ |s'.vecs .u 3 - s'.vecs .u 0| := by
    intro n
    induction n with
    | zero =>
      intro s' h
      have := BC.ok_inj h
      subst this
      rw [hinit.1, hinit.2, hv, hv]
      simp
    | succ n ih =>
      intro s' h
      obtain ⟨s1, r1, r2⟩ := run_succ h
      obtain ⟨i1, i2⟩ := ih s1 r1
      obtain ⟨w, f, he, hu0, hyw, hd, ha, hu', hy', hvv⟩ := advance_free hcs r2
      have a1 := hacc n s1 r1
      have a2 := hacc (n + 1) s' h
      have eu : s'.vecs .u 3 - s'.vecs .u 0 = (s1.vecs .u 3 - s1.vecs .u 0) + t * (s1.vecs .v 3 - s1.vecs .v 0) +
          t ^ 2 / 2 * (s1.a 3 - s1.a 0) := by
        rw [hu', hu', hu0, hu0]
        show _ + t * (_ + t / 2 * _) - (_ + t * (_ + t / 2 * _)) = _
        ring
      have ev : s'.vecs .v 3 - s'.vecs .v 0 = (s1.vecs .v 3 - s1.vecs .v 0) + t / 2 * (s1.a 3 - s1.a 0) + t / 2 * (s'.a 3 - s'.a 0) := by
        rw [hvv, hvv]
        show _ + t / 2 * _ + t / 2 * _ - (_ + t / 2 * _ + t / 2 * _) = _
        ring
      rw [a1] at eu
      rw [a1, a2] at ev
      generalize s1.vecs .u 3 - s1.vecs .u 0 = e at *
      generalize s1.vecs .v 3 - s1.vecs .v 0 = r at *
      generalize s'.vecs .u 3 - s'.vecs .u 0 = e' at *
      generalize s'.vecs .v 3 - s'.vecs .v 0 = r' at *
      obtain ⟨c, hc⟩ : ∃ c, c = 18 * t ^ 2 - 1 := ⟨_, rfl⟩
      have hc2 : 2 ≤ c := by linarith
      have ee : e' = -c * e + t * r := by rw [eu, hc]; ring
      have er : t * r' = -c * (t * r) + (c ^ 2 - 1) * e := by
        rw [ev, ee, hc]
        ring
      generalize t * r = q at *
      rw [er, ee]
      constructor
      · have h3 : 0 ≤ (c ^ 2 - 1) := by nlinarith
        have : (-c * e + q) * (-c * q + (c ^ 2 - 1) * e) = (2 * c ^ 2 - 1) * (e * q) - c * (c ^ 2 - 1) * e ^ 2 - c * q ^ 2 := by ring
        rw [this]
        have t1 : (2 * c ^ 2 - 1) * (e * q) ≤ 0 := mul_nonpos_of_nonneg_of_nonpos (by nlinarith) i1
        have t2 : 0 ≤ c * (c ^ 2 - 1) * e ^ 2 := by positivity
        have t3 : 0 ≤ c * q ^ 2 := by positivity
        linarith
      · have h4 : (2 * |e|) ^ 2 ≤ |-c * e + q| ^ 2 := by
          rw [sq_abs, mul_pow, sq_abs]
          have : (-c * e + q) ^ 2 = c ^ 2 * e ^ 2 - 2 * c * (e * q) + q ^ 2 := by ring
          rw [this]
          have t1 : 2 * c * (e * q) ≤ 0 := mul_nonpos_of_nonneg_of_nonpos (by linarith) i1
          have t2 : (2 : ℝ) ^ 2 * e ^ 2 ≤ c ^ 2 * e ^ 2 := mul_le_mul_of_nonneg_right (by nlinarith) (sq_nonneg _)
          nlinarith [sq_nonneg q]
        have h5 : 2 * |e| ≤ |-c * e + q| := by
          exact (sq_le_sq₀ (by positivity) (abs_nonneg _)).1 h4
        rw [pow_succ]
        linarith
  intro M
  have hpos : 0 < |vecs .u 3 - vecs .u 0| := abs_pos.2 hu
  obtain ⟨n, hn⟩ := pow_unbounded_of_one_lt (M / |vecs .u 3 - vecs .u 0|) (by norm_num : (1 : ℝ) < 2)
  obtain ⟨s', h'⟩ := h2 s0 n
  refine ⟨n, s', h', lt_of_lt_of_le ?_ (key n s' h').2⟩
  rwa [div_lt_iff₀ hpos] at hn

/-- **C257** For every mesh and every body there is a safety factor below which all runs with the critical time step are stable: their kinetic
energy stays below the initial energy.  Missing: that any factor up to one will do, which is false (`C257_unstable`). -/
theorem C257_stable_partial (blocks : List Outputs.MeshBlock) (hB : ∀ B ∈ blocks, B.Regular) (w2 : ℝ) (hw : 0 < w2) :
    ∃ limit : ℝ, 0 < limit ∧ ∀ safety : ℝ, 0 < safety → safety ≤ limit → ∃ dt,
      Outputs.explicitStep none (some safety) (blocks.map Outputs.MeshBlock.pieces) = .ok dt ∧ 0 < dt ∧
      ∀ {σ : Type} (P : Params) (X : BC.Ctx) (cs : BC.Conditions) (eval : Eval σ) (C : Config) (K mu : ℝ) (S : Lps.Stored)
        (nbs : List (List Nat)) (ghost : (Nat → ℝ) → Nat → ℝ) (vecs : BC.Vecs) (b : σ) (s0 : State σ) (n : Nat) (s : State σ),
        P.dt = dt → BC.makeConditions [] = .ok cs → Lps.Sound C K mu → Lps.SetUp C nbs S → Within nbs nbs.length →
        P.length = 3 * nbs.length → (∀ l < nbs.length, 0 < P.density l) → LinearLps C K mu S nbs ghost eval →
        FrequencyBound P C K mu S nbs ghost w2 → initialStep P X cs eval vecs b = .ok s0 → run P X cs eval s0 n = .ok s →
        1 / 2 * inner P C.v nbs.length (s.vecs .v) (s.vecs .v) ≤
          1 / 2 * inner P C.v nbs.length (s0.vecs .v) (s0.vecs .v) - 1 / 2 * inner P C.v nbs.length s0.a (s0.vecs .u) := by
  obtain ⟨t, ht, hp, -, -⟩ := Outputs.C56_critical_step hB
  have hq : 0 < Real.sqrt w2 := Real.sqrt_pos.2 hw
  refine ⟨2 / (t * Real.sqrt w2), by positivity, fun f hf hl => ⟨t * f, ?_, by positivity, ?_⟩⟩
  · rw [Outputs.explicitStep, ht, Outcome.ok_bind]
  · intro σ P X cs eval C K mu S nbs ghost vecs b s0 n s hdt hcs hC hS hN hlen hr hL hF hi h
    refine C256_stable P X cs hcs eval C K mu hC S nbs hS hN ghost hlen hr hL w2 hw hF ?_ vecs b s0 hi n s h
    rw [hdt]
    rw [le_div_iff₀ (by positivity)] at hl
    have e : (t * f) ^ 2 * w2 = (f * (t * Real.sqrt w2)) ^ 2 := by
      rw [mul_pow, mul_pow, mul_pow, Real.sq_sqrt hw.le]
      ring
    rw [e]
    have : 0 ≤ f * (t * Real.sqrt w2) := by positivity
    nlinarith

/-- The block of two points is regular, and its frequency bound is positive. -/
example : (∀ B ∈ [barBlock], B.Regular) ∧ (0 : ℝ) < 36 := ⟨by simpa using barBlock_regular, by norm_num⟩

/-- A safety factor of 0.7 meets the hypothesis of the counterexample, and the two points may start at rest and pulled apart by a thousandth. -/
example : (1 / 2 : ℝ) ≤ 7 / 10 ∧ ∃ vecs : BC.Vecs, (∀ i, vecs .v i = 0) ∧ vecs .u 3 - vecs .u 0 ≠ 0 :=
  ⟨by norm_num, fun t i => if t = .u ∧ i = 3 then 1 / 1000 else 0, fun i => by simp, by simp⟩

end Verif.Conserve
