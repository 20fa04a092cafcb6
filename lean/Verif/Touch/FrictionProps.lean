import Verif.Touch.Props

/-! C194: the friction coefficient used is the one asked for. -/

noncomputable section

namespace Verif.Touch

open Verif Verif.Mech Verif.Neigh Verif.Contact
open scoped Classical

/-- C194, evaluation: if the friction function assigns its value without reading it, then after `evaluateParserFriction` the
coefficient is the function at the current time, and nothing else has changed.  `_partial`: functions that read the
variable `value`, or set it only under a condition, are excluded, see `C194_switch_false`. -/
theorem C194_evaluate_partial (m : Model) (φ : ℝ → ℝ) (h : Asks m φ) (tc tp : ℝ) :
    ∃ m', evaluateFriction tc tp m = .ok m' ∧ m'.params.friction = φ tc ∧
      m'.params.radius = m.params.radius ∧ m'.params.springConstant = m.params.springConstant ∧
      m'.params.horizon = m.params.horizon ∧ m'.source = m.source :=
  ⟨_, evaluateFriction_eq h m.params.friction tc tp fun _ => rfl, rfl, rfl, rfl, rfl, rfl⟩

example : ∃ m', evaluateFriction 3 1 ⟨⟨2, 1, 7, 1⟩, .timed (some fun t _ => some (t * t))⟩ = .ok m' ∧ m'.params.friction = 9 := by
  obtain ⟨m', h1, h2, _⟩ := C194_evaluate_partial ⟨⟨2, 1, 7, 1⟩, .timed (some fun t _ => some (t * t))⟩ (fun t => t * t)
    (fun _ _ => rfl) 3 1
  exact ⟨m', h1, by rw [h2]; norm_num⟩

/-- C194, run: the forces of every step are those for the friction asked for at the time of that step.  `_partial`: besides
what `C194_evaluate_partial` excludes, the simulation must begin at time zero, see `C194_initial_time_false`. -/
theorem C194_run_partial (W : World) (hW : W.Valid) (models : List (Nat × Model)) (hM : ValidModels W models) (φ : Nat → ℝ → ℝ)
    (hφ : ∀ x ∈ models, Asks x.2 (φ x.1)) (freq : Int) (hf : freq ≠ 0) (parts : List Contact.Part) (M : Mothership)
    (hst : GoodStart W parts M) (r : Round) (t : Truth) (hr : GoodRound W t.search (parts.map Contact.Part.owned) r)
    (dy dv : Assembly.Dist V3) (hy : Carries W.ids t.y dy) (hv : Carries W.ids t.v dv) (xs : List StepInput)
    (ts : List Truth) (hs : GoodSteps W freq 1 (r.tgt.map Prod.fst) xs ts) (target : Assembly.Dist V3)
    (ht : ∀ part ∈ target, ∀ e ∈ part, e.1 ∈ W.ids) (outs : List (Assembly.Dist V3))
    (h : run freq parts models M r dy dv xs target = .ok outs) (h0 : t.time = 0) :
    outs = expected W freq (paramsAt models φ) target 0 W.bonds (t :: ts) := by
  rw [C193_run W hW models hM φ hφ freq hf parts M hst r t hr dy dv hy hv xs ts hs target ht outs h, expected, h0,
    neighborsAtStep, if_pos (by simp)]

example : ∃ outs, run 1 demoParts demoModels demoShip demoRound (demoVec demoY) (demoVec demoV) [demoStep 3] demoTarget =
      .ok outs ∧
    outs = expected demoWorld 1 (paramsAt demoModels demoFriction) demoTarget 0 demoWorld.bonds [demoTruth 0, demoTruth 3] := by
  obtain ⟨outs, h⟩ := C193_defined demoWorld demo_world demoModels demo_models demoFriction demo_asks 1 one_ne_zero demoParts
    demoShip demo_start demoRound (demoTruth 0) demo_round _ _ (demo_vec _) (demo_vec _) _ _ (demo_steps 3) demoTarget
    demo_target demo_horizon demo_apart (demo_allApart 3)
  exact ⟨outs, h, C194_run_partial demoWorld demo_world demoModels demo_models demoFriction demo_asks 1 one_ne_zero demoParts
    demoShip demo_start demoRound (demoTruth 0) demo_round _ _ (demo_vec _) (demo_vec _) _ _ (demo_steps 3) demoTarget
    demo_target outs h rfl⟩

/-- Both points of the pair 0, 2 in a block whose friction coefficient is the time. -/
def slideModels : List (Nat × Model) :=
  [(1, ⟨⟨2, 1, 0, 1⟩, .timed (some fun t _ => some t)⟩), (2, ⟨⟨2, 1, 0, 1⟩, .timed (some fun t _ => some t)⟩)]

theorem slide_models : ValidModels demoWorld slideModels := by
  refine ⟨by simp [slideModels], ?_, ?_⟩
  · intro g hg
    simp only [demoWorld, List.mem_cons, List.not_mem_nil, or_false] at hg
    rcases hg with rfl | rfl | rfl <;> simp [demoWorld, slideModels]
  · intro x hx
    simp only [slideModels, List.mem_cons, List.not_mem_nil, or_false] at hx
    rcases hx with rfl | rfl <;> norm_num

theorem slide_asks : ∀ x ∈ slideModels, Asks x.2 ((fun (_ : Nat) (t : ℝ) => t) x.1) := by
  intro x hx
  simp only [slideModels, List.mem_cons, List.not_mem_nil, or_false] at hx
  rcases hx with rfl | rfl <;> exact fun t w => rfl

theorem slide_horizon : ∀ x ∈ slideModels, x.2.params.horizon ≠ 0 := by
  intro x hx
  simp only [slideModels, List.mem_cons, List.not_mem_nil, or_false] at hx
  rcases hx with rfl | rfl <;> norm_num

/-- The tangential force on point 0 at friction coefficient `μ`. -/
theorem slide_force (μ : ℝ) : forceOn demoWorld (fun _ => ⟨2, 1, μ, 1⟩) (unbonded demoWorld.bonds demoSearch) demoY demoV 0 1 =
    -(18 * μ / Real.pi) := by
  rw [C193_twice demoWorld demo_world _ (unbonded demoWorld.bonds demoSearch) _ _ (fun g hg k hk => demo_search g hg k (List.mem_filter.1 hk).1) (by decide)
    (by decide) 0 (by decide), show unbonded demoWorld.bonds demoSearch 0 = [2] by decide]
  have h1 : demoY 2 - demoY 0 = ![1, 0, 0] := by
    funext c; fin_cases c <;> simp [demoY]
  have h2 : demoV 0 - demoV 2 = ![0, 2, 0] := by
    funext c; fin_cases c <;> simp [demoV]
  have h3 : len ![(1 : ℝ), 0, 0] = 1 := by simp [len]
  have h4 : unit ![(1 : ℝ), 0, 0] = ![1, 0, 0] := by rw [unit, h3, inv_one, one_smul]
  have h5 : tangential ![(1 : ℝ), 0, 0] ![(0 : ℝ), 2, 0] = ![0, 2, 0] := by
    unfold tangential
    funext c; fin_cases c <;> simp
  have h6 : len ![(0 : ℝ), 2, 0] = 2 := by
    have : len ![(0 : ℝ), 2, 0] = Real.sqrt (2 * 2) := by simp [len]
    rw [this, Real.sqrt_mul_self (by norm_num)]
  have h7 : unit ![(0 : ℝ), 2, 0] = ![0, 1, 0] := by
    rw [unit, h6]
    funext c; fin_cases c <;> simp
  simp only [List.map_cons, List.map_nil, List.sum_cons, List.sum_nil, add_zero]
  rw [law]
  simp only
  rw [h1, h2, h3, h4, h5, h7]
  have hs : strength ⟨2, 1, μ, 1⟩ 1 = 9 / Real.pi := by
    rw [strength, if_pos (by norm_num)]
    simp only
    congr 1
    · norm_num
    · norm_num
  rw [hs, abs_of_pos (div_pos (by norm_num) Real.pi_pos)]
  simp only [Pi.smul_apply, Pi.add_apply, smul_eq_mul, demoWorld]
  simp
  ring

/-- C194 is false if the simulation does not begin at time zero: the forces of the initial configuration are computed with the
friction coefficient at time zero.  Here the coefficient is the time, the simulation begins at time 1, and point 0
gets no friction force. -/
theorem C194_initial_time_false :
    ∃ out, run 1 demoParts slideModels demoShip demoRound (demoVec demoY) (demoVec demoV) [] demoTarget = .ok [out] ∧
      [out] ≠ expected demoWorld 1 (paramsAt slideModels fun _ t => t) demoTarget 0 demoWorld.bonds [demoTruth 1] := by
  obtain ⟨outs, h⟩ := C193_defined demoWorld demo_world slideModels slide_models (fun _ t => t) slide_asks 1 one_ne_zero
    demoParts demoShip demo_start demoRound (demoTruth 1) demo_round _ _ (demo_vec _) (demo_vec _) [] [] trivial demoTarget
    demo_target slide_horizon demo_apart trivial
  have h1 := C193_run demoWorld demo_world slideModels slide_models (fun _ t => t) slide_asks 1 one_ne_zero
    demoParts demoShip demo_start demoRound (demoTruth 1) demo_round _ _ (demo_vec _) (demo_vec _) [] [] trivial demoTarget
    demo_target outs h
  simp only [demoTruth] at h h1
  refine ⟨forcesOn demoWorld (paramsAt slideModels (fun _ t => t) 0) (unbonded demoWorld.bonds demoSearch) demoY demoV demoTarget,
    by rw [h, h1]; rfl, ?_⟩
  intro hc
  rw [expected, neighborsAtStep, if_pos (by simp)] at hc
  have hP : ∀ t : ℝ, forcesOn demoWorld (paramsAt slideModels (fun _ t => t) t) (unbonded demoWorld.bonds demoSearch) demoY demoV
      demoTarget = forcesOn demoWorld (fun _ => ⟨2, 1, t, 1⟩) (unbonded demoWorld.bonds demoSearch) demoY demoV demoTarget := by
    intro t
    apply forcesOn_congr
    intro g hg
    simp only [demoWorld, List.mem_cons, List.not_mem_nil, or_false] at hg
    rcases hg with rfl | rfl | rfl <;> rfl
  have h2 := (List.cons.inj hc).1
  simp only [demoTruth] at h2
  rw [hP, hP] at h2
  have h3 := congrArg (fun d : Assembly.Dist V3 => (d.flatten.map fun e => e.2 1)[0]?) h2
  simp only [forcesOn, demoTarget, demoVec, List.map_cons, List.map_nil, List.flatten_cons, List.flatten_nil,
    List.append_nil, List.cons_append, List.nil_append, List.getElem?_cons_zero, Option.some.injEq] at h3
  rw [slide_force, slide_force] at h3
  have := Real.pi_pos
  have h4 : 18 * (1 : ℝ) / Real.pi ≠ 0 := by positivity
  apply h4
  rw [mul_zero, zero_div, neg_zero] at h3
  linarith

/-- C194 is false for a function that sets `value` only under a condition, which `evaluateParserFriction` starts from zero
only at the previous time: friction one half up to time 1 stays for one step too long. -/
theorem C194_switch_false :
    let f : Body := fun t w => some (if t < 1 then 1 / 2 else w)
    f 2 0 = some 0 ∧
    evaluateFriction 2 0 ⟨⟨2, 1, 0, 1⟩, .timed (some f)⟩ = .ok ⟨⟨2, 1, 1 / 2, 1⟩, .timed (some f)⟩ := by
  intro f
  have h1 : f 2 0 = some 0 := by simp only [f]; norm_num
  refine ⟨h1, ?_⟩
  have h2 : callBody f 0 0 = .ok (1 / 2) := by simp only [callBody, f]; norm_num
  have h3 : callBody f 2 (1 / 2) = .ok (1 / 2) := by simp only [callBody, f]; norm_num
  simp only [evaluateFriction]
  rw [h2, Outcome.ok_bind, h3, Outcome.ok_bind]

/-- C194, errors: a friction function that does not compile, or fails at one of the two times, stops the simulation. -/
theorem C194_error (m : Model) (tc tp : ℝ) (f : Option Body) (hs : m.source = .timed f)
    (h : ∀ g, f = some g → g tp 0 = none ∨ ∃ w, g tp 0 = some w ∧ g tc w = none) :
    evaluateFriction tc tp m = .fail .runtimeError := by
  rw [evaluateFriction, hs]
  cases f with
  | none => rfl
  | some g =>
    simp only
    rcases h g rfl with h1 | ⟨w, h1, h2⟩
    · rw [callBody, h1]; rfl
    · rw [callBody, h1]
      simp only [Outcome.ok_bind]
      rw [callBody, h2]; rfl

example : evaluateFriction 2 1 ⟨⟨2, 1, 0, 1⟩, .timed (some fun t _ => if t < 2 then some t else none)⟩ = .fail .runtimeError := by
  apply C194_error _ _ _ _ rfl
  intro g hg
  cases hg
  exact Or.inr ⟨1, by norm_num, by norm_num⟩

end Verif.Touch
