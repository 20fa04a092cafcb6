import Verif.Implicit.Lemmas
import Verif.QuasiStatic.SolveProps
import Mathlib.Tactic.LinearCombination

/-!
# Implicit dynamics: properties (C43)
-/

namespace Verif.Implicit

open Verif Verif.BC Verif.Explicit Verif.QuasiStatic

variable {σ ω : Type}

/-- **C43**, kinematics: whatever forces and linear solver do, displacement, velocity and
acceleration at the end of every step satisfy Newmark's formulas with those at its beginning, and
positions are reference positions plus displacements. -/
theorem C43_newmark (P : Params) (E : Env) (S : Solver σ ω) (ds : List Definition)
    (hcs : makeConditions ds = .ok E.cs) (s0 : State σ ω) (n : Nat) (s' : State σ ω)
    (h : run P E S s0 (n + 1) = .ok s') :
    ∃ s, run P E S s0 n = .ok s ∧ s'.time = P.timeInitial + (n + 1 : ℕ) * P.dt ∧
      s'.timePrevious = s.time ∧ ∀ i,
        s'.vecs .u i = s.vecs .u i + P.dt * s.vecs .v i +
          P.dt ^ 2 * ((1 / 2 - P.beta) * s.a i + P.beta * s'.a i) ∧
        s'.vecs .v i = s.vecs .v i + P.dt * ((1 - P.gamma) * s.a i + P.gamma * s'.a i) ∧
        s'.vecs .y i = E.C.x i + s'.vecs .u i := by
  obtain ⟨s, t, h1, h2, rfl⟩ := run_succ h
  obtain ⟨hc, _⟩ := solve_ok hcs h2
  refine ⟨s, h1, rfl, rfl, fun i => ⟨?_, ?_, hc.y i⟩⟩
  · have ha := hc.a i
    rw [eq_div_iff hc.nz] at ha
    rw [knownU_eq] at ha
    show t.trial.vecs .u i = _ + _ + P.dt ^ 2 * (_ + P.beta * t.trial.a i)
    linear_combination -ha
  · have hv := hc.v i
    rw [knownV_eq] at hv
    show t.trial.vecs .v i = _ + P.dt * (_ + P.gamma * t.trial.a i)
    linear_combination hv

/-- **C43**, balance of momentum: at the end of every step the acceleration, the internal force
density evaluated in the new configuration and the body force density *at the beginning of the
step* balance at every degree of freedom that is not constrained, up to a residual whose norm the
iteration has tested. -/
theorem C43_balance (P : Params) (E : Env) (S : Solver σ ω) (ds : List Definition)
    (hcs : makeConditions ds = .ok E.cs) (hm : E.dofs = dispOnly) (s0 : State σ ω) (n : Nat)
    (s' : State σ ω) (h : run P E S s0 (n + 1) = .ok s') :
    ∃ (s : State σ ω) (wk wk' : ω) (w : Vecs) (f : Nat → ℝ) (norm : ℝ),
      run P E S s0 n = .ok s ∧ S.force s.N wk w s'.a = .ok (wk', f) ∧
      (∀ q, q ≠ .externalForce → w q = s'.vecs q) ∧
      applyForces E.C E.cs.force s.time s.timePrevious w = .ok s'.vecs ∧
      (∃ t, solve P E S s = .ok t ∧ t.norm = norm) ∧
      ∀ g l k, lid E.C.owned g = some l → k < 3 →
        ¬ Constrained E.dofs E.C.sets E.cs.boundary g .displacement k →
        |P.beta * P.dt ^ 2 * (P.density l * s'.a (l * 3 + k) - f (l * 3 + k) -
          s'.vecs .externalForce (l * 3 + k))| ≤ norm := by
  obtain ⟨s, t, h1, h2, rfl⟩ := run_succ h
  obtain ⟨_, he⟩ := solve_ok hcs h2
  obtain ⟨wk, w, e1, e2, e3⟩ := he.ev
  refine ⟨s, wk, t.work, w, t.force, t.norm, h1, e1, e2, e3, ⟨t, h2, rfl⟩, ?_⟩
  intro g l k hl hk hfree
  have hz := (zeroed_exact hcs hm he.res hl hk).2 hfree
  have hlt : l * 3 + k < E.length := by
    obtain ⟨q1, q2⟩ := lid_some.mp hl
    have := List.idxOf_lt_length_of_mem q1
    unfold Env.length
    omega
  have hdiv : (l * 3 + k) / 3 = l := by omega
  rw [hdiv] at hz
  rw [he.norm]
  have := norm2_ge t.residual E.length _ hlt
  rw [hz] at this
  rw [pow_two]
  exact this

theorem iterate_norm {P : Params} {E : Env} {S : Solver σ ω} {N : σ} {u2 v2 : Nat → ℝ} {tc tp : ℝ} :
    ∀ (fuel : Nat) (t t' : Iter ω), iterate P E S N u2 v2 tc tp fuel t = .ok t' →
    t'.norm ≤ P.absoluteTolerance ∨ ∀ m ≤ fuel, ∃ t'', iterate P E S N u2 v2 tc tp m t = .ok t'' ∧
      P.absoluteTolerance < t''.norm := by
  intro fuel
  induction fuel with
  | zero =>
    intro t t' h
    have e := ok_inj h
    subst e
    by_cases hn : P.absoluteTolerance < t.norm
    · refine .inr fun m hm => ?_
      obtain rfl : m = 0 := by omega
      exact ⟨t, rfl, hn⟩
    · exact .inl (not_lt.mp hn)
  | succ fuel ih =>
    intro t t' h
    by_cases hn : P.absoluteTolerance < t.norm
    · have h' := h
      unfold iterate at h
      rw [if_pos hn] at h
      obtain ⟨d, h0, h⟩ := Outcome.bind_eq_ok.mp h
      obtain ⟨t1, h1, h⟩ := Outcome.bind_eq_ok.mp h
      obtain ⟨t2, h2, h⟩ := Outcome.bind_eq_ok.mp h
      rcases ih t2 t' h with hx | hx
      · exact .inl hx
      · refine .inr fun m hm => ?_
        cases m with
        | zero => exact ⟨t, rfl, hn⟩
        | succ m =>
          obtain ⟨t3, e1, e2⟩ := hx m (by omega)
          refine ⟨t3, ?_, e2⟩
          unfold iterate
          rw [if_pos hn, h0]
          simp only [Outcome.ok_bind]
          rw [h1]
          simp only [Outcome.ok_bind]
          rw [h2]
          exact e1
    · refine .inl ?_
      unfold iterate at h
      rw [if_neg hn] at h
      rw [← ok_inj h]
      exact not_lt.mp hn

/-- **C43**, acceptance: a step ends with a residual within the tolerance, or after the full number of
`maxSolverIterations + 1` iterations, starting from the predictor, none of which brought it within
the tolerance.  In the latter case the step is accepted all the same. -/
theorem C43_converged_or_exhausted (P : Params) (E : Env) (S : Solver σ ω) (s : State σ ω)
    (t : Iter ω) (h : solve P E S s = .ok t) :
    t.norm ≤ P.absoluteTolerance ∨
    ∃ p t0, place P E (knownU P s.vecs s.a) (knownV P s.vecs s.a) s.vecs (knownU P s.vecs s.a) =
        .ok p ∧ evaluate P E S s.N s.work s.time s.timePrevious p = .ok t0 ∧
      ∀ m ≤ (P.maxSolverIterations + 1).toNat, ∃ t'',
        iterate P E S s.N (knownU P s.vecs s.a) (knownV P s.vecs s.a) s.time s.timePrevious m t0 =
          .ok t'' ∧ P.absoluteTolerance < t''.norm := by
  unfold solve at h
  obtain ⟨t1, h1, h⟩ := Outcome.bind_eq_ok.mp h
  obtain ⟨t2, h2, h⟩ := Outcome.bind_eq_ok.mp h
  exact (iterate_norm _ t2 t h).imp id fun hx => ⟨t1, t2, h1, h2, hx⟩

/-- The times of the steps. -/
theorem C43_times (P : Params) (E : Env) (S : Solver σ ω) (vecs : Vecs) (a : Nat → ℝ) (N : σ)
    (work : ω) (s : State σ ω) (h : executeImplicit P E S vecs a N work = .ok s) (hdt : 0 < P.dt)
    (hle : P.timeInitial ≤ P.timeFinal) :
    s.time ≤ P.timeFinal ∧ P.timeFinal < s.time + P.dt := by
  unfold executeImplicit at h
  obtain ⟨n, hn, h⟩ := Outcome.bind_eq_ok.mp h
  obtain ⟨s0, h0, h⟩ := Outcome.bind_eq_ok.mp h
  unfold start at h0
  obtain ⟨w1, _, h0⟩ := Outcome.bind_eq_ok.mp h0
  obtain ⟨w2, _, h0⟩ := Outcome.bind_eq_ok.mp h0
  have e := ok_inj h0
  subst e
  have ht := (run_time (P := P) (E := E) (S := S) rfl rfl n s h).1
  unfold numSteps at hn
  rw [if_neg (ne_of_gt hdt)] at hn
  split at hn
  · exact absurd hn (by simp)
  · split at hn
    · exact absurd hn (by simp)
    · have e := ok_inj hn
      have hnn : 0 ≤ ⌊(P.timeFinal - P.timeInitial) / P.dt⌋ :=
        Int.floor_nonneg.mpr (div_nonneg (by linarith) (le_of_lt hdt))
      have hcast : ((n : ℕ) : ℝ) = (⌊(P.timeFinal - P.timeInitial) / P.dt⌋ : ℝ) := by
        have : ((n : ℕ) : ℤ) = ⌊(P.timeFinal - P.timeInitial) / P.dt⌋ := by
          rw [← e]; exact Int.toNat_of_nonneg hnn
        exact_mod_cast this
      have h1 := Int.floor_le ((P.timeFinal - P.timeInitial) / P.dt)
      have h2 := Int.lt_floor_add_one ((P.timeFinal - P.timeInitial) / P.dt)
      rw [← hcast] at h1 h2
      rw [le_div_iff₀ hdt] at h1
      rw [div_lt_iff₀ hdt] at h2
      rw [ht]
      constructor <;> linarith

/-- **C43**, what becomes of prescribed displacements: a constrained degree of freedom moves with the
velocity it has at the beginning, whatever displacement is prescribed, given a linear solver that
solves the rows of constrained unknowns (C35) and no acceleration at the beginning. -/
theorem C43_constrained_drifts_partial (P : Params) (E : Env) (S : Solver σ ω) (ds : List Definition)
    (hcs : makeConditions ds = .ok E.cs) (hm : E.dofs = dispOnly) (g l k : Nat)
    (hl : lid E.C.owned g = some l) (hk : k < 3)
    (hcon : Constrained E.dofs E.C.sets E.cs.boundary g .displacement k)
    (hdec : Decoupled S (l * 3 + k)) (s0 : State σ ω) (ha : s0.a (l * 3 + k) = 0) :
    ∀ (n : Nat) (s : State σ ω), run P E S s0 n = .ok s →
      s.vecs .u (l * 3 + k) = s0.vecs .u (l * 3 + k) + n * P.dt * s0.vecs .v (l * 3 + k) ∧
      s.vecs .v (l * 3 + k) = s0.vecs .v (l * 3 + k) ∧ s.a (l * 3 + k) = 0 := by
  intro n
  induction n with
  | zero => intro s h; rw [← ok_inj h]; simp [ha]
  | succ n ih =>
    intro s h
    obtain ⟨s1, t, h1, h2, rfl⟩ := run_succ h
    obtain ⟨i1, i2, i3⟩ := ih s1 h1
    obtain ⟨hc, _⟩ := solve_ok hcs h2
    have hu := solve_held hcs hdec (fun f r hz => (zeroed_exact hcs hm hz hl hk).1 hcon) h2
    have ha' : t.trial.a (l * 3 + k) = 0 := by rw [hc.a, hu, sub_self, zero_div]
    refine ⟨?_, ?_, ha'⟩
    · show t.trial.vecs .u (l * 3 + k) = _
      rw [hu, knownU_eq, i1, i2, i3]
      push_cast
      ring
    · show t.trial.vecs .v (l * 3 + k) = _
      rw [hc.v, ha', knownV_eq, i2, i3]
      ring

/-! ## A small instance -/

/-- No internal force; the linear solver returns the right hand side. -/
def idle : Solver Unit Unit where
  force := fun _ _ _ _ => .ok ((), fun _ => 0)
  direction := fun _ _ _ _ r => .ok ((), r)
  shift := fun _ _ => ((), ())

theorem idle_decoupled (i : Nat) : Decoupled idle i := by
  intro N wk w a r d h hr
  have e : (Outcome.ok ((), r) : Outcome (Unit × (Nat → ℝ))) = .ok d := h
  rw [← ok_inj e]; exact hr

/-- Steps of length one, average acceleration. -/
noncomputable def demoNewmark : Params where
  timeInitial := 0
  timeFinal := 3
  dt := 1
  beta := 1 / 4
  gamma := 1 / 2
  absoluteTolerance := 1 / 1000
  maxSolverIterations := 10
  density := fun _ => 1

/-- The pulled node with a velocity `c` in all directions. -/
noncomputable def restState (c : ℝ) : State Unit Unit where
  vecs := fun q _ => if q = .v then c else 0
  a := fun _ => 0
  time := 0
  timePrevious := 0
  N := ()
  work := ()

theorem pulled_zeroed : zeroed pulledEnv (fun _ => 0) = .ok fun _ => 0 := by
  have : zeroed pulledEnv (fun _ => 0) = .ok fun i => ([0, 0, 0] : List ℝ).getD i 0 := rfl
  rw [this]
  congr 1
  funext i
  match i with
  | 0 => rfl
  | 1 => rfl
  | 2 => rfl
  | _ + 3 => rfl

/-- A step of the pulled node without acceleration. -/
theorem rest_step (s : State Unit Unit) (x c : ℝ) (hu : s.vecs .u = fun _ => x)
    (hv : s.vecs .v = fun _ => c) (ha : s.a = fun _ => 0) (n : Nat) :
    ∃ t s', solve demoNewmark pulledEnv idle s = .ok t ∧ t.norm = 0 ∧
      advance demoNewmark pulledEnv idle s n = .ok s' ∧
      s'.vecs .u = (fun _ => x + c) ∧ s'.vecs .v = (fun _ => c) ∧ s'.a = (fun _ => 0) := by
  have hk : knownU demoNewmark s.vecs s.a = fun _ => x + c := by
    funext i
    have hd : demoNewmark.dt = 1 := rfl
    rw [knownU_eq, hu, hv, ha, hd]; ring
  have hk' : knownV demoNewmark s.vecs s.a = fun _ => c := by
    funext i; rw [knownV_eq, hv, ha]; ring
  have hz : demoNewmark.beta * (demoNewmark.dt * demoNewmark.dt) ≠ 0 := by norm_num [demoNewmark]
  obtain ⟨t1, h1⟩ : ∃ t1, place demoNewmark pulledEnv (fun _ => x + c) (fun _ => c) s.vecs
      (fun _ => x + c) = .ok t1 := by
    unfold place; rw [if_neg hz]; exact ⟨_, rfl⟩
  obtain ⟨hc, hu1, _⟩ := place_ok h1
  have ha1 : t1.a = fun _ => 0 := by funext i; rw [hc.a, hu1]; simp
  have hv1 : t1.vecs .v = fun _ => c := by funext i; rw [hc.v, ha1]; simp
  have hf : applyForces pulledEnv.C pulledEnv.cs.force s.time s.timePrevious t1.vecs =
      .ok (clearForce t1.vecs) := rfl
  have hr : (fun i => demoNewmark.beta * (demoNewmark.dt * demoNewmark.dt) *
      (demoNewmark.density (i / 3) * t1.a i - 0 - clearForce t1.vecs .externalForce i)) =
      fun _ => 0 := by
    funext i
    have : clearForce t1.vecs .externalForce i = 0 := rfl
    rw [this, ha1]; ring
  have hn : norm2 pulledEnv.length (fun _ => 0) = 0 := by unfold norm2; simp
  have he : evaluate demoNewmark pulledEnv idle s.N s.work s.time s.timePrevious t1 =
      .ok ⟨⟨clearForce t1.vecs, t1.a⟩, (), fun _ => 0, fun _ => 0, 0⟩ := by
    unfold evaluate
    have : idle.force s.N s.work t1.vecs t1.a = .ok ((), fun _ => 0) := rfl
    rw [this]
    simp only [Outcome.ok_bind]
    rw [hf]
    simp only [Outcome.ok_bind]
    rw [hr, pulled_zeroed]
    simp only [Outcome.ok_bind]
    rw [hn]
  have hs : solve demoNewmark pulledEnv idle s =
      .ok ⟨⟨clearForce t1.vecs, t1.a⟩, (), fun _ => 0, fun _ => 0, 0⟩ := by
    unfold solve
    rw [hk, hk', h1]
    simp only [Outcome.ok_bind]
    rw [he]
    simp only [Outcome.ok_bind]
    have : (demoNewmark.maxSolverIterations + 1).toNat = 10 + 1 := rfl
    rw [this]
    unfold iterate
    rw [if_neg (by norm_num [demoNewmark])]
  refine ⟨_, _, hs, rfl, by unfold advance; rw [hs]; rfl, ?_, ?_, ?_⟩
  · show clearForce t1.vecs .u = _
    have : clearForce t1.vecs .u = t1.vecs .u := rfl
    rw [this, hu1]
  · show clearForce t1.vecs .v = _
    have : clearForce t1.vecs .v = t1.vecs .v := rfl
    rw [this, hv1]
  · exact ha1

theorem rest_run (c : ℝ) (n : Nat) : ∃ s, run demoNewmark pulledEnv idle (restState c) n = .ok s ∧
    s.vecs .u = (fun _ => n * c) ∧ s.vecs .v = (fun _ => c) ∧ s.a = (fun _ => 0) := by
  induction n with
  | zero =>
    refine ⟨restState c, rfl, ?_, ?_, rfl⟩
    · funext i; simp [restState]
    · funext i; simp [restState]
  | succ n ih =>
    obtain ⟨s, h1, h2, h3, h4⟩ := ih
    obtain ⟨t, s', _, _, h5, h6, h7⟩ := rest_step s _ c h2 h3 h4 n
    refine ⟨s', ?_, ?_, h7⟩
    · unfold run
      rw [h1]
      exact h5
    · rw [h6]; funext i; push_cast; ring

/-- Two steps of the small instance, a moving node: C43_newmark applies. -/
example : ∃ s s', run demoNewmark pulledEnv idle (restState 5) 2 = .ok s' ∧
    run demoNewmark pulledEnv idle (restState 5) 1 = .ok s ∧
    s'.vecs .u 0 = s.vecs .u 0 + 1 * s.vecs .v 0 +
      1 ^ 2 * ((1 / 2 - 1 / 4) * s.a 0 + 1 / 4 * s'.a 0) := by
  obtain ⟨s', h, _⟩ := rest_run 5 2
  obtain ⟨s, h1, _, _, h2⟩ := C43_newmark _ _ _ _ pulled_conditions _ _ _ h
  exact ⟨s, s', h, h1, (h2 0).1⟩

/-- C43_balance applies to the small instance; its residual norm is below the tolerance. -/
example : ∃ s', run demoNewmark pulledEnv idle (restState 5) 2 = .ok s' ∧
    pulledEnv.dofs = dispOnly ∧
    ∃ s, run demoNewmark pulledEnv idle (restState 5) 1 = .ok s ∧
      ∃ t, solve demoNewmark pulledEnv idle s = .ok t ∧ t.norm ≤ demoNewmark.absoluteTolerance := by
  obtain ⟨s', h, _⟩ := rest_run 5 2
  obtain ⟨s, h1, h2, h3, h4⟩ := rest_run 5 1
  obtain ⟨t, _, h5, h6, _⟩ := rest_step s _ 5 h2 h3 h4 1
  exact ⟨s', h, rfl, s, h1, t, h5, by rw [h6]; norm_num [demoNewmark]⟩

/-- The constrained node drifts: C43_constrained_drifts_partial applies with a velocity of 5. -/
example : ∃ s, run demoNewmark pulledEnv idle (restState 5) 3 = .ok s ∧
    s.vecs .u 0 = 0 + 3 * 1 * 5 := by
  obtain ⟨s, h, hu, _⟩ := rest_run 5 3
  exact ⟨s, h, by rw [hu]; norm_num⟩

/-- **C43 is false as stated**: the displacement `2 t` is prescribed for the node, which starts in
agreement with it; after three steps, at time 3, the node has not moved. -/
theorem C43_prescribed_not_followed :
    ∃ (P : Params) (E : Env) (S : Solver Unit Unit) (ds : List Definition) (d : Definition)
      (s0 s : State Unit Unit) (n : Nat),
      makeConditions ds = .ok E.cs ∧ ds = [d] ∧ d.type = .prescribedDisplacement ∧
      Covers E.C.sets d 0 0 ∧ lid E.C.owned 0 = some 0 ∧
      start P E (fun _ _ => 0) (fun _ => 0) () () = .ok s0 ∧
      d.value 0 0 0 s0.time = some (s0.vecs .u 0) ∧
      run P E S s0 n = .ok s ∧ s.time = 3 ∧ d.value 0 0 0 s.time = some 6 ∧ s.vecs .u 0 = 0 := by
  obtain ⟨s, h, hu, _⟩ := rest_run 0 3
  have hb : applyBoundary pulledEnv.C pulledEnv.cs.boundary 0 0 (fun _ _ => 0) = .ok (fun _ _ => 0) := by
    unfold applyBoundary
    have : ∀ c ∈ pulledEnv.cs.boundary, ∀ s, apply pulledEnv.C 0 0 s c = .ok s := by
      intro c hc s
      simp only [pulledEnv, List.mem_cons, List.not_mem_nil, or_false] at hc
      rcases hc with rfl | rfl <;>
        (unfold apply skips; simp [obj])
    show List.foldlM _ _ [_, _] = _
    rw [List.foldlM_cons, this _ (by simp [pulledEnv])]
    simp only [Outcome.ok_bind]
    rw [List.foldlM_cons, this _ (by simp [pulledEnv])]
    rfl
  have ht := (run_time (P := demoNewmark) (E := pulledEnv) (S := idle) rfl rfl 3 s h).1
  have ht3 : s.time = 3 := by rw [ht]; norm_num [demoNewmark]
  refine ⟨demoNewmark, pulledEnv, idle, [pullX], pullX, restState 0, s, 3, pulled_conditions, rfl, rfl,
    ⟨rfl, [0], rfl, by simp⟩, rfl, ?_, ?_, h, ht3, ?_, by rw [hu]; simp⟩
  · unfold start
    show (do
      let w1 ← applyBoundary pulledEnv.C pulledEnv.cs.boundary 0 0 (fun _ _ => 0)
      _ : Outcome (State Unit Unit)) = _
    rw [hb]
    simp only [Outcome.ok_bind]
    have : applyForces pulledEnv.C pulledEnv.cs.force demoNewmark.timeInitial demoNewmark.timeInitial
        (fun _ _ => 0) = .ok (clearForce fun _ _ => 0) := rfl
    rw [this]
    simp only [Outcome.ok_bind]
    have hcl : clearForce (fun _ _ => 0) = fun _ _ => 0 := by
      funext t i; unfold clearForce; split <;> rfl
    rw [hcl]
    have hv0 : (restState 0).vecs = fun _ _ => 0 := by
      funext q i; simp [restState]
    have : restState 0 = ⟨fun _ _ => 0, fun _ => 0, 0, 0, (), ()⟩ := by
      rw [← hv0]; rfl
    rw [this]
    rfl
  · show some (2 * 0 : ℝ) = some 0
    norm_num
  · rw [ht3]
    show some (2 * 3 : ℝ) = some 6
    norm_num

end Verif.Implicit
