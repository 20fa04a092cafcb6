import Verif.QuasiStatic.Demo

/-!
# Quasi-static load stepping: times and termination (C40, C41)
-/

namespace Verif.QuasiStatic

open Verif Verif.BC Verif.Explicit

variable {σ ω : Type}

/-! ## C40 -/

/-- **C40**, first part: whatever attempts fail and however they are repeated, the times of the
completed load steps increase strictly, beginning after the first time of the list. -/
theorem C40_increasing (P : Params) (E : Env) (S : Solver σ ω) (ts : List ℝ) (t : ℝ) (rest : List ℝ)
    (hts : ts = t :: rest) (hinc : ts.Pairwise (· < ·)) (vecs : Vecs) (N : σ) (work : ω) (tf : ℝ)
    (s0 : State σ ω) (hst : start P E ts vecs N work = .ok (tf, s0)) (n : Nat) (x : Next σ ω)
    (h : run P E S tf n s0 = .ok x) : (t :: x.state.completed).Pairwise (· < ·) := by
  obtain ⟨_, _, _, htimes, _⟩ := start_ok hst
  have h0 : s0.times.IsChain (· < ·) := by rw [htimes]; exact List.isChain_iff_pairwise.mpr hinc
  obtain ⟨h1, h2, _⟩ := run_lined (t0 := t) (P := P) (E := E) (S := S) (tf := tf)
    (fun s => s.times.IsChain (· < ·))
    (fun s x hl hc hp => pass_chain lt_mid (fun A a b r _ _ hab hr => ext_chain hab hr) hl hc hp)
    n s0 x (start_lined hst hts) h0 h
  exact (List.isChain_iff_pairwise.mp h1).sublist h2.sublist

theorem finished_last {P : Params} {t : ℝ} {s : State σ ω} (hl : Lined P t s)
    (he : s.times[s.step]? = none) : s.times = t :: s.completed := by
  obtain ⟨pre, rest, h1, h2, h3⟩ := hl
  have := lined_end h1 h2 he
  subst this
  rw [h1, h3]

/-- **C40**, second part: if the loop runs to its end, the last completed load step ends at the
requested final time - unless all remaining load steps are shortened after a failure and the time
remaining is not a multiple of the load steps (see `C40_overshoot`). -/
theorem C40_reaches_final_time_partial (P : Params) (E : Env) (S : Solver σ ω) (ts : List ℝ) (t : ℝ)
    (rest : List ℝ) (hts : ts = t :: rest) (hinc : ts.Pairwise (· < ·)) (vecs : Vecs) (N : σ)
    (work : ω) (tf : ℝ) (s0 : State σ ω) (hst : start P E ts vecs N work = .ok (tf, s0))
    (hfit : NoReduce P ∨ ts.IsChain (Fits tf)) (n : Nat) (s : State σ ω)
    (h : run P E S tf n s0 = .ok (.finished s)) : (t :: s.completed).getLast? = some tf := by
  obtain ⟨_, _, _, htimes, _, _, _, _, _, _, hlast, _⟩ := start_ok hst
  have hl0 := start_lined hst hts
  rcases hfit with hR | hF
  · obtain ⟨h1, _, h3⟩ := run_lined (t0 := t) (P := P) (E := E) (S := S) (tf := tf)
      (fun s => s.times.getLast? = some tf)
      (fun s x hl hc hp => by rw [pass_last hR hl hp]; exact hc)
      n s0 _ hl0 (by rw [htimes]; exact hlast) h
    rw [← finished_last (h3 s (.inr rfl)) (run_finished n s0 s h)]
    exact h1
  · have hc0 : s0.times.IsChain fun a b => a < b ∧ Fits tf a b := by
      rw [htimes]
      have h1 := List.isChain_iff_pairwise.mpr hinc
      rw [List.isChain_iff_forall_rel_of_append_cons_cons] at h1 hF ⊢
      intro a b l1 l2 e
      exact ⟨h1 e, hF e⟩
    obtain ⟨h1, _, h3⟩ := run_lined (t0 := t) (P := P) (E := E) (S := S) (tf := tf)
      (fun s => s.times.IsChain (fun a b => a < b ∧ Fits tf a b) ∧ s.times.getLast? = some tf)
      (fun s x hl hc hp => ⟨pass_chain fits_mid
        (fun A a b r _ _ hab hr => (ext_fits hab.1 hab.2 hr).1) hl hc.1 hp,
        pass_last_fits hl hc.1 hc.2 hp⟩)
      n s0 _ hl0 ⟨hc0, by rw [htimes]; exact hlast⟩ h
    rw [← finished_last (h3 s (.inr rfl)) (run_finished n s0 s h)]
    exact h1.2

/-- **C40** in the remaining case: the load steps cover the requested interval, and only the last
of them may end beyond the final time. -/
theorem C40_reduced_steps_cover (P : Params) (A : Adaptive) (hA : P.adaptive = some A)
    (hR : A.reduceAll = true) (E : Env) (S : Solver σ ω) (ts : List ℝ) (t : ℝ) (rest : List ℝ)
    (hts : ts = t :: rest) (hinc : ts.Pairwise (· < ·)) (vecs : Vecs) (N : σ) (work : ω) (tf : ℝ)
    (s0 : State σ ω) (hst : start P E ts vecs N work = .ok (tf, s0)) (n : Nat) (s : State σ ω)
    (h : run P E S tf n s0 = .ok (.finished s)) :
    ∃ init l, t :: s.completed = init ++ [l] ∧ tf ≤ l ∧ ∀ a ∈ init, a < tf := by
  obtain ⟨_, _, _, htimes, _, _, _, hf, _, _, hlast, _⟩ := start_ok hst
  have hl0 := start_lined hst hts
  obtain ⟨init, hi⟩ := List.getLast?_eq_some_iff.mp hlast
  have hcov : Covering P tf s0 := by
    refine ⟨⟨init, tf, by rw [htimes]; exact hi, le_refl _, fun _ a ha => ?_⟩, ?_⟩
    · rw [hi, List.pairwise_append] at hinc
      exact hinc.2.2 a ha tf (by simp)
    · intro hf'; rw [hf] at hf'; exact absurd hf' (by simp)
  have hc := run_covering hA hR n s0 s hl0
    (by rw [htimes]; exact List.isChain_iff_pairwise.mpr hinc) hcov h
  obtain ⟨_, _, h3⟩ := run_lined (t0 := t) (P := P) (E := E) (S := S) (tf := tf)
    (fun _ => True) (fun _ _ _ _ _ => trivial) n s0 _ hl0 trivial h
  have he := run_finished n s0 s h
  have heq := finished_last (h3 s (.inr rfl)) he
  obtain ⟨⟨i1, l1, e1, e2, e3⟩, hfl⟩ := hc
  refine ⟨i1, l1, by rw [← heq, e1], e2, e3 ?_⟩
  cases hf' : s.failedInStep with
  | false => rfl
  | true =>
    obtain ⟨_, tc, htc⟩ := hfl hf'
    rw [he] at htc; exact absurd htc (by simp)

/-- Number of load steps, initial and final time given: the list increases, begins and ends as
requested, and the remaining time is a multiple of every step. -/
theorem uniform_schedule (t0 t1 : ℝ) (hlt : t0 < t1) (n : Int) (hn : 1 ≤ n) (ts : List ℝ)
    (h : timeSteps (.uniform t0 t1 n) = .ok ts) :
    ts.head? = some t0 ∧ ts.length = n.toNat + 1 ∧ ts.Pairwise (· < ·) ∧ ts.getLast? = some t1 ∧
      ts.IsChain (Fits t1) := by
  have e := ok_inj h
  have hn0 : (0 : ℝ) < n := by exact_mod_cast hn
  have hcast : ((n.toNat : ℕ) : ℝ) = n := by
    have : ((n.toNat : ℕ) : Int) = n := by omega
    exact_mod_cast this
  have hgen : ts = t0 :: (List.range n.toNat).map fun i : Nat => t0 + ((i : ℝ) + 1) * ((t1 - t0) / n) := by
    rw [← e]
    congr 1
    apply List.map_congr_left
    intro i _
    rw [mul_div_assoc]
  have hd : 0 < (t1 - t0) / n := div_pos (by linarith) hn0
  have hfit := gen_fits (tf := t1) hd n.toNat t0 (by rw [hcast]; field_simp)
  have hlast := gen_last ((t1 - t0) / n) n.toNat t0
  subst hgen
  refine ⟨rfl, by simp, ?_, ?_, hfit.imp fun _ _ h => h.2⟩
  · exact List.isChain_iff_pairwise.mp (hfit.imp fun _ _ h => h.1)
  · rw [hlast, hcast]
    congr 1
    field_simp
    ring

/-- **C40** for load steps given by their number: with or without adaptive stepping, with or without
shortening of all remaining steps, the completed load steps increase and the last one ends at the
requested final time. -/
theorem C40_uniform (P : Params) (E : Env) (S : Solver σ ω) (t0 t1 : ℝ) (hlt : t0 < t1) (k : Int)
    (hk : 1 ≤ k) (vecs : Vecs) (N : σ) (work : ω) (n : Nat) (s : State σ ω)
    (h : execute P E S (.uniform t0 t1 k) vecs N work n = .ok (.finished s)) :
    (t0 :: s.completed).Pairwise (· < ·) ∧ (t0 :: s.completed).getLast? = some t1 := by
  unfold execute at h
  obtain ⟨ts, hts, hr⟩ := Outcome.bind_eq_ok.mp h
  obtain ⟨⟨tf, s0⟩, hst, hrun⟩ := Outcome.bind_eq_ok.mp hr
  obtain ⟨h1, _, h2, h3, h4⟩ := uniform_schedule t0 t1 hlt k hk ts hts
  obtain ⟨rest, hrest⟩ : ∃ rest, ts = t0 :: rest := by
    cases ts with
    | nil => simp at h1
    | cons a rest =>
      simp only [List.head?_cons, Option.some.injEq] at h1
      exact ⟨rest, by rw [h1]⟩
  have htf : tf = t1 := by
    obtain ⟨_, _, _, _, _, _, _, _, _, _, hlast, _⟩ := start_ok hst
    rw [h3] at hlast
    injection hlast with hlast
    exact hlast.symm
  subst htf
  exact ⟨C40_increasing P E S ts t0 rest hrest h2 vecs N work tf s0 hst n (.finished s) hrun,
    C40_reaches_final_time_partial P E S ts t0 rest hrest h2 vecs N work tf s0 hst (.inr h4) n s hrun⟩

/-- A number of load steps that is not positive gives no load step at all: the run ends at once
without reaching the final time. -/
theorem no_load_steps (t0 t1 : ℝ) (n : Int) (hn : n ≤ 0) :
    timeSteps (.uniform t0 t1 n) = .ok [t0] := by
  simp only [timeSteps]
  rw [Int.toNat_of_nonpos hn]
  rfl

/-- Failures may be repeated three times in a step, five times in all. -/
def demoAdaptive (r : Bool) : Adaptive where
  maxInOneStep := 3
  maxTotal := 5
  reduceAll := r

theorem ext_step {tc dt tf : ℝ} (hdt : 0 < dt) (h : tc < tf) {r : List ℝ}
    (hr : extension (tc + dt) dt tf = .ok r) : extension tc dt tf = .ok ((tc + dt) :: r) := by
  unfold extension at hr ⊢
  rw [if_neg (by linarith), if_neg (by linarith)]
  split at hr
  · rename_i hle
    have := ok_inj hr; subst this
    have h1 : ⌈(tf - tc) / dt⌉₊ = 1 := by
      rw [Nat.ceil_eq_iff (by simp)]
      constructor
      · simp; exact div_pos (by linarith) hdt
      · rw [div_le_iff₀ hdt]; push_cast; linarith
    rw [h1]
    simp
  · rename_i hle
    rw [if_neg (by linarith)] at hr
    have := ok_inj hr; subst this
    have h1 : ⌈(tf - tc) / dt⌉₊ = ⌈(tf - (tc + dt)) / dt⌉₊ + 1 := by
      rw [← Nat.ceil_add_one (div_nonneg (by linarith) (le_of_lt hdt))]
      congr 1
      field_simp
      ring
    rw [h1, gen_succ]

theorem ext_done {tc dt tf : ℝ} (h : tf ≤ tc) : extension tc dt tf = .ok [] := by
  unfold extension; rw [if_pos h]

/-- Load steps 0, 1, 7/4 on the small instance, load steps longer than 3/5 failing, all remaining
load steps shortened: the last load step ends at 2. -/
theorem demo_overshoot :
    ∃ s0 s, start (demoParams (some (demoAdaptive true))) demoEnv [0, 1, 7 / 4] (fun _ _ => 0) () () =
        .ok (7 / 4, s0) ∧
      run (demoParams (some (demoAdaptive true))) demoEnv (demoSolver fun d => 3 / 5 < d) (7 / 4) 6 s0 =
        .ok (.finished s) ∧
      s.completed = [1 / 2, 1, 3 / 2, 2] := by
  let P := demoParams (some (demoAdaptive true))
  obtain ⟨s0, hst, a1, a2, a3, a4, a5, a6, a7⟩ :=
    demo_start (some (demoAdaptive true)) (by decide) 0 [1, 7 / 4]
  have hres : ∀ {s : State Unit Unit} {tc dt : ℝ}, s.failedInStep = false →
      rescheduled P (7 / 4) s.times s.step s.failedInStep tc dt = .ok s.times := by
    intro s tc dt hf
    unfold rescheduled
    show (if true = true ∧ s.failedInStep = true then _ else _) = _
    rw [if_neg (by rw [hf]; simp)]
  obtain ⟨s1, p1, b1, b2, b3, b4, b5, b6, b7⟩ := demo_cut (fun d => 3 / 5 < d) (demoAdaptive true)
    (7 / 4) s0 0 1 (by rw [a1, a2]; rfl) a3 (by norm_num) (by norm_num)
    (by rw [a5]; decide) (by rw [a6]; decide)
  rw [a1, a2] at b1
  have b1' : s1.times = [0, 1 / 2, 1, 7 / 4] := by rw [b1]; norm_num
  have hext : extension (1 / 2) (1 / 2 - 0) (7 / 4) = .ok [1 / 2 + (1 / 2 - 0), 1 / 2 + (1 / 2 - 0) + (1 / 2 - 0),
      1 / 2 + (1 / 2 - 0) + (1 / 2 - 0) + (1 / 2 - 0)] :=
    ext_step (by norm_num) (by norm_num) (ext_step (by norm_num) (by norm_num)
      (ext_step (by norm_num) (by norm_num) (ext_done (by norm_num))))
  have hr1 : rescheduled P (7 / 4) s1.times s1.step s1.failedInStep (1 / 2) (1 / 2 - 0) =
      .ok [0, 1 / 2, 1, 3 / 2, 2] := by
    unfold rescheduled
    show (if true = true ∧ s1.failedInStep = true then _ else _) = _
    rw [if_pos ⟨rfl, b4⟩, hext, b1', b2, a2]
    simp only [Outcome.ok_bind]
    norm_num
  obtain ⟨s2, p2, c1, c2, c3, c4, c5, c6, c7⟩ := demo_accept (fun d => 3 / 5 < d)
    (some (demoAdaptive true)) (7 / 4) s1 0 (1 / 2) _ (by rw [b1', b2, a2]; rfl) b3 (by norm_num)
    (by norm_num) hr1
  obtain ⟨s3, p3, d1, d2, d3, d4, d5, d6, d7⟩ := demo_accept (fun d => 3 / 5 < d)
    (some (demoAdaptive true)) (7 / 4) s2 (1 / 2) 1 _ (by rw [c1, c2, b2, a2]; rfl) c3 (by norm_num)
    (by norm_num) (hres c4)
  rw [c1] at d1
  obtain ⟨s4, p4, e1, e2, e3, e4, e5, e6, e7⟩ := demo_accept (fun d => 3 / 5 < d)
    (some (demoAdaptive true)) (7 / 4) s3 1 (3 / 2) _ (by rw [d1, d2, c2, b2, a2]; rfl) d3 (by norm_num)
    (by norm_num) (hres d4)
  rw [d1] at e1
  obtain ⟨s5, p5, f1, f2, f3, f4, f5, f6, f7⟩ := demo_accept (fun d => 3 / 5 < d)
    (some (demoAdaptive true)) (7 / 4) s4 (3 / 2) 2 _ (by rw [e1, e2, d2, c2, b2, a2]; rfl) e3
    (by norm_num) (by norm_num) (hres e4)
  rw [e1] at f1
  refine ⟨s0, s5, by simpa using hst, ?_, ?_⟩
  · rw [run_again p1, run_again p2, run_again p3, run_again p4, run_again p5]
    exact demo_finish _ _ _ 0 s5 (by rw [f1, f2, e2, d2, c2, b2, a2]; rfl)
  · rw [f7, e7, d7, c7, b7, a7]; rfl

example : ∃ s0 s, start (demoParams (some (demoAdaptive true))) demoEnv [0, 1, 7 / 4] (fun _ _ => 0) () () =
        .ok (7 / 4, s0) ∧
      run (demoParams (some (demoAdaptive true))) demoEnv (demoSolver fun d => 3 / 5 < d) (7 / 4) 6 s0 =
        .ok (.finished s) ∧ ((0 : ℝ) :: s.completed).Pairwise (· < ·) := by
  obtain ⟨s0, s, h1, h2, _⟩ := demo_overshoot
  exact ⟨s0, s, h1, h2, C40_increasing _ _ _ _ 0 _ rfl (by norm_num) _ _ _ _ _ h1 _ (.finished s) h2⟩

/-- **C40 is false as stated** with "Reduce all remaining load steps": with the load steps 0, 1, 7/4
and one failure the run ends at time 2, beyond the requested final time 7/4. -/
theorem C40_overshoot :
    ∃ (P : Params) (E : Env) (S : Solver Unit Unit) (ts : List ℝ) (vecs : Vecs) (tf : ℝ)
      (s0 s : State Unit Unit) (n : Nat),
      ts.Pairwise (· < ·) ∧ start P E ts vecs () () = .ok (tf, s0) ∧ ts.getLast? = some tf ∧
      run P E S tf n s0 = .ok (.finished s) ∧ ∃ t, s.completed.getLast? = some t ∧ tf < t := by
  obtain ⟨s0, s, h1, h2, h3⟩ := demo_overshoot
  exact ⟨_, _, _, _, _, _, s0, s, 6, by norm_num, h1, by simp, h2, 2, by rw [h3]; rfl, by norm_num⟩

/-- Two load steps to time 1 on the small instance, load steps longer than 3/10 failing: four
completed load steps of 1/4. -/
theorem demo_uniform :
    ∃ s, execute (demoParams (some (demoAdaptive false))) demoEnv (demoSolver fun d => 3 / 10 < d)
      (.uniform 0 1 2) (fun _ _ => 0) () () 7 = .ok (.finished s) ∧
      s.completed = [1 / 4, 1 / 2, 3 / 4, 1] ∧ s.total = 2 := by
  let P := demoParams (some (demoAdaptive false))
  have hts : timeSteps (.uniform 0 1 2) = .ok [0, 1 / 2, 1] := by
    have : List.range (Int.toNat 2) = [0, 1] := rfl
    simp only [timeSteps]
    rw [this]
    norm_num
  obtain ⟨s0, hst, a1, a2, a3, a4, a5, a6, a7⟩ :=
    demo_start (some (demoAdaptive false)) (by decide) 0 [1 / 2, 1]
  have hres : ∀ {s : State Unit Unit} {tc dt : ℝ},
      rescheduled P 1 s.times s.step s.failedInStep tc dt = .ok s.times := by
    intro s tc dt
    unfold rescheduled
    show (if false = true ∧ s.failedInStep = true then _ else _) = _
    rw [if_neg (by simp)]
  obtain ⟨s1, p1, b1, b2, b3, b4, b5, b6, b7⟩ := demo_cut (fun d => 3 / 10 < d) (demoAdaptive false)
    1 s0 0 (1 / 2) (by rw [a1, a2]; rfl) a3 (by norm_num) (by norm_num)
    (by rw [a5]; decide) (by rw [a6]; decide)
  rw [a1, a2] at b1
  have b1' : s1.times = [0, 1 / 4, 1 / 2, 1] := by rw [b1]; norm_num
  obtain ⟨s2, p2, c1, c2, c3, c4, c5, c6, c7⟩ := demo_accept (fun d => 3 / 10 < d)
    (some (demoAdaptive false)) 1 s1 0 (1 / 4) _ (by rw [b1', b2, a2]; rfl) b3 (by norm_num)
    (by norm_num) hres
  rw [b1'] at c1
  obtain ⟨s3, p3, d1, d2, d3, d4, d5, d6, d7⟩ := demo_accept (fun d => 3 / 10 < d)
    (some (demoAdaptive false)) 1 s2 (1 / 4) (1 / 2) _ (by rw [c1, c2, b2, a2]; rfl) c3 (by norm_num)
    (by norm_num) hres
  rw [c1] at d1
  obtain ⟨s4, p4, e1, e2, e3, e4, e5, e6, e7⟩ := demo_cut (fun d => 3 / 10 < d) (demoAdaptive false)
    1 s3 (1 / 2) 1 (by rw [d1, d2, c2, b2, a2]; rfl) d3 (by norm_num) (by norm_num)
    (by rw [d5, c5, b5, a5]; decide) (by rw [d6]; decide)
  have e1' : s4.times = [0, 1 / 4, 1 / 2, 3 / 4, 1] := by rw [e1, d1, d2, c2, b2, a2]; norm_num
  obtain ⟨s5, p5, f1, f2, f3, f4, f5, f6, f7⟩ := demo_accept (fun d => 3 / 10 < d)
    (some (demoAdaptive false)) 1 s4 (1 / 2) (3 / 4) _ (by rw [e1', e2, d2, c2, b2, a2]; rfl) e3
    (by norm_num) (by norm_num) hres
  rw [e1'] at f1
  obtain ⟨s6, p6, g1, g2, g3, g4, g5, g6, g7⟩ := demo_accept (fun d => 3 / 10 < d)
    (some (demoAdaptive false)) 1 s5 (3 / 4) 1 _ (by rw [f1, f2, e2, d2, c2, b2, a2]; rfl) f3
    (by norm_num) (by norm_num) hres
  rw [f1] at g1
  refine ⟨s6, ?_, ?_, ?_⟩
  · unfold execute
    rw [hts]
    simp only [Outcome.ok_bind]
    rw [hst]
    simp only [Outcome.ok_bind]
    have hl : ([0, 1 / 2, 1] : List ℝ).getLast (by simp) = 1 := by simp
    rw [hl, run_again p1, run_again p2, run_again p3, run_again p4, run_again p5, run_again p6]
    exact demo_finish _ _ _ 0 s6 (by rw [g1, g2, f2, e2, d2, c2, b2, a2]; rfl)
  · rw [g7, f7, e7, d7, c7, b7, a7]; rfl
  · rw [g5, f5, e5, d5, c5, b5, a5]

example : ∃ s, execute (demoParams (some (demoAdaptive false))) demoEnv (demoSolver fun d => 3 / 10 < d)
      (.uniform 0 1 2) (fun _ _ => 0) () () 7 = .ok (.finished s) ∧
      ((0 : ℝ) :: s.completed).getLast? = some 1 := by
  obtain ⟨s, h, _⟩ := demo_uniform
  exact ⟨s, h, (C40_uniform _ _ _ 0 1 (by norm_num) 2 (by norm_num) _ _ _ _ s h).2⟩

/-! ## C41 -/

/-- **C41**: with adaptive load stepping the loop ends after finitely many attempts, whatever
attempts fail and also if all remaining load steps are shortened. -/
theorem C41_terminates (P : Params) (A : Adaptive) (hA : P.adaptive = some A) (E : Env)
    (S : Solver σ ω) (tf : ℝ) (s0 : State σ ω) :
    ∃ n, ∀ s', run P E S tf n s0 ≠ .ok (.again s') := by
  suffices H : ∀ b k : Nat, ∀ s : State σ ω, budget A s = b → s.times.length - s.step = k →
      ∃ n, ∀ s', run P E S tf n s ≠ .ok (.again s') from H _ _ s0 rfl rfl
  intro b
  induction b using Nat.strong_induction_on with
  | _ b ihb =>
    intro k
    induction k using Nat.strong_induction_on with
    | _ k ihk =>
      intro s hb hk
      by_cases hex : ∃ s1, pass P E S tf s = .ok (.again s1)
      · obtain ⟨s1, h1⟩ := hex
        have hdec : ∃ n, ∀ s', run P E S tf n s1 ≠ .ok (.again s') := by
          rcases pass_measure hA h1 with h | ⟨h, h'⟩
          · exact ihb (budget A s1) (by omega) _ s1 rfl rfl
          · exact ihk (s1.times.length - s1.step) (by omega) s1 (by omega) rfl
        obtain ⟨n, hn⟩ := hdec
        exact ⟨n + 1, fun s' => by rw [run_again h1]; exact hn s'⟩
      · exact ⟨1, run_stop fun s1 h => hex ⟨s1, h⟩⟩

/-- **C41** without adaptive load stepping: one attempt for every entry of the list. -/
theorem C41_terminates_fixed (P : Params) (hA : P.adaptive = none) (E : Env)
    (S : Solver σ ω) (tf : ℝ) (s0 : State σ ω) :
    ∀ s', run P E S tf (s0.times.length - s0.step + 1) s0 ≠ .ok (.again s') := by
  suffices H : ∀ k : Nat, ∀ s : State σ ω, s.times.length - s.step = k →
      ∀ s', run P E S tf (k + 1) s ≠ .ok (.again s') from H _ s0 rfl
  intro k
  induction k with
  | zero =>
    intro s hk
    refine run_stop fun s1 h => ?_
    rcases pass_cases h with ⟨_, e⟩ | ⟨tc, a, l, e, _⟩ | ⟨tc, a, e, _, _, hx⟩
    · exact absurd e (by simp)
    · have := (List.getElem?_eq_some_iff.mp e).1; omega
    · have := (List.getElem?_eq_some_iff.mp e).1; omega
  | succ k ih =>
    intro s hk
    by_cases hex : ∃ s1, pass P E S tf s = .ok (.again s1)
    · obtain ⟨s1, h1⟩ := hex
      rw [run_again h1]
      apply ih
      rcases pass_cases h1 with ⟨_, e⟩ | ⟨tc, a, l, e, _, _, hr, hx⟩ | ⟨tc, a, e, _, _, hx⟩
      · exact absurd e (by simp)
      · injection hx with hx
        unfold rescheduled at hr
        rw [hA] at hr
        have hl := ok_inj hr
        have e1 : s1.times = s.times := by rw [hx, hl]; rfl
        have e2 : s1.step = s.step + 1 := by rw [hx]; rfl
        rw [e1, e2]; omega
      · rcases reject_cases P s (oldTime P s) tc a with ⟨s2, h2, _⟩ | ⟨A, _, h2, _⟩
        · rw [h2] at hx; exact absurd hx (by simp)
        · rw [hA] at h2; exact absurd h2 (by simp)
    · exact run_stop fun s1 h => hex ⟨s1, h⟩

/-- **C41**, the bound: without shortening of all remaining load steps the number of attempts is at
most the number of requested load steps plus twice the number of cuts allowed. -/
theorem C41_bound (P : Params) (A : Adaptive) (hA : P.adaptive = some A) (hR : A.reduceAll = false)
    (E : Env) (S : Solver σ ω) (ts : List ℝ) (vecs : Vecs) (N : σ) (work : ω) (tf : ℝ)
    (s0 : State σ ω) (hst : start P E ts vecs N work = .ok (tf, s0)) :
    ∀ s', run P E S tf (ts.length - 1 + 2 * A.maxTotal.toNat + 1) s0 ≠ .ok (.again s') := by
  suffices H : ∀ k : Nat, ∀ s : State σ ω,
      s.times.length - s.step + 2 * (A.maxTotal - s.total).toNat ≤ k →
      ∀ s', run P E S tf (k + 1) s ≠ .ok (.again s') by
    obtain ⟨_, _, _, h1, h2, _, _, _, _, h3, _⟩ := start_ok hst
    apply H
    rw [h1, h2, h3]
    simp
  intro k
  induction k with
  | zero =>
    intro s hk
    refine run_stop fun s1 h => ?_
    rcases pass_cases h with ⟨_, e⟩ | ⟨tc, a, l, e, _⟩ | ⟨tc, a, e, _, _, hx⟩
    · exact absurd e (by simp)
    · have := (List.getElem?_eq_some_iff.mp e).1; omega
    · have := (List.getElem?_eq_some_iff.mp e).1; omega
  | succ k ih =>
    intro s hk
    by_cases hex : ∃ s1, pass P E S tf s = .ok (.again s1)
    · obtain ⟨s1, h1⟩ := hex
      rw [run_again h1]
      apply ih
      rcases pass_cases h1 with ⟨_, e⟩ | ⟨tc, a, l, e, _, _, hr, hx⟩ | ⟨tc, a, e, _, _, hx⟩
      · exact absurd e (by simp)
      · injection hx with hx
        have hlt := (List.getElem?_eq_some_iff.mp e).1
        unfold rescheduled at hr
        rw [hA] at hr
        simp only at hr
        rw [if_neg (by rw [hR]; simp)] at hr
        have hl := ok_inj hr
        have e1 : s1.times = s.times := by rw [hx, hl]; rfl
        have e2 : s1.step = s.step + 1 := by rw [hx]; rfl
        have e3 : s1.total = s.total := by rw [hx]; rfl
        rw [e1, e2, e3]; omega
      · have hlt := (List.getElem?_eq_some_iff.mp e).1
        rcases reject_cases P s (oldTime P s) tc a with ⟨s2, h2, _⟩ |
          ⟨A', s2, hA', hm, _, h2, ht, hs, _, _, _, _, _, _, htot, _⟩
        · rw [h2] at hx; exact absurd hx (by simp)
        · rw [h2] at hx
          injection hx with hx
          subst hx
          rw [hA] at hA'
          injection hA' with hA'
          subst hA'
          rw [ht, hs, htot, List.length_insertIdx_of_le_length (by omega)]
          push_cast
          omega
    · exact run_stop fun s1 h => hex ⟨s1, h⟩

/-- **C41**: every attempt either completes a load step or is counted as a failure. -/
theorem C41_attempts_counted (P : Params) (E : Env) (S : Solver σ ω) (ts : List ℝ) (vecs : Vecs)
    (N : σ) (work : ω) (tf : ℝ) (s0 : State σ ω) (hst : start P E ts vecs N work = .ok (tf, s0))
    (n : Nat) (s : State σ ω) (h : run P E S tf n s0 = .ok (.again s)) :
    n = s.completed.length + s.total := by
  obtain ⟨_, _, _, _, _, _, hlog, _, _, htot, _⟩ := start_ok hst
  have := run_count n s0 s h
  rw [hlog, htot] at this
  simp only [List.length_nil] at this
  unfold State.completed
  rw [List.length_map]
  omega

/-- **C41**: the loop is left early only if stepping is not adaptive or more failures have occurred
than allowed, in all or in the current load step. -/
theorem C41_gives_up (P : Params) (E : Env) (S : Solver σ ω) (tf : ℝ) : ∀ (n : Nat)
    (s0 s : State σ ω), run P E S tf n s0 = .ok (.gaveUp s) →
    P.adaptive = none ∨ ∃ A, P.adaptive = some A ∧ (A.maxTotal < s.total ∨ A.maxInOneStep < s.inStep) := by
  intro n
  induction n with
  | zero => intro s0 s h; exact absurd (ok_inj h) (by simp)
  | succ n ih =>
    intro s0 s h
    obtain ⟨y, hy, ⟨s1, rfl, h⟩ | ⟨_, h⟩⟩ := run_succ h
    · exact ih s1 s h
    · subst h
      rcases pass_cases hy with ⟨_, e⟩ | ⟨tc, a, l, e, _, _, hr, hx⟩ | ⟨tc, a, e, _, _, hx⟩
      · exact absurd e (by simp)
      · exact absurd hx (by simp)
      · rcases reject_cases P s0 (oldTime P s0) tc a with
          ⟨s2, h2, _, _, _, _, _, _, _, _, h3⟩ | ⟨_, s2, _, _, _, h2, _⟩
        · rw [h2] at hx
          injection hx with hx
          subst hx
          rcases h3 with h3 | ⟨A, h3, _, _, h4⟩
          · exact .inl h3
          · exact .inr ⟨A, h3, h4⟩
        · rw [h2] at hx; exact absurd hx (by simp)

/-- **C41**, the inner loop: for increasing load steps every attempt has a positive length, and the
loop that appends the shortened load steps ends. -/
theorem C41_inner_loop_ends (P : Params) (E : Env) (S : Solver σ ω) (ts : List ℝ) (t : ℝ)
    (rest : List ℝ) (hts : ts = t :: rest) (hinc : ts.Pairwise (· < ·)) (vecs : Vecs) (N : σ)
    (work : ω) (tf : ℝ) (s0 : State σ ω) (hst : start P E ts vecs N work = .ok (tf, s0)) (n : Nat)
    (s : State σ ω) (h : run P E S tf n s0 = .ok (.again s)) (tc : ℝ)
    (hc : s.times[s.step]? = some tc) :
    oldTime P s < tc ∧
      ∃ l, rescheduled P tf s.times s.step s.failedInStep tc (tc - oldTime P s) = .ok l := by
  obtain ⟨_, _, _, htimes, _⟩ := start_ok hst
  obtain ⟨h1, _, h3⟩ := run_lined (t0 := t) (P := P) (E := E) (S := S) (tf := tf)
    (fun s => s.times.IsChain (· < ·))
    (fun s x hl hc hp => pass_chain lt_mid (fun A a b r _ _ hab hr => ext_chain hab hr) hl hc hp)
    n s0 _ (start_lined hst hts) (by rw [htimes]; exact List.isChain_iff_pairwise.mpr hinc) h
  obtain ⟨pre, rest', e1, e2, _⟩ := h3 s (.inl rfl)
  obtain ⟨rest2, rfl⟩ := lined_next e1 e2 hc
  have h1' : s.times.IsChain (· < ·) := h1
  rw [e1, List.isChain_append_cons_cons] at h1'
  have hlt : oldTime P s < tc := h1'.2.1
  refine ⟨hlt, ?_⟩
  unfold rescheduled
  split
  · exact ⟨_, rfl⟩
  · split
    · unfold extension
      split
      · exact ⟨_, rfl⟩
      · rw [if_neg (by linarith)]
        exact ⟨_, rfl⟩
    · exact ⟨_, rfl⟩

/-- Starting as in `demo_uniform`, with at most five failures in all, the loop has ended after
2 + 2 * 5 + 1 attempts. -/
example : ∃ s0, start (demoParams (some (demoAdaptive false))) demoEnv [0, 1 / 2, 1] (fun _ _ => 0) () () =
      .ok (1, s0) ∧
    ∀ s', run (demoParams (some (demoAdaptive false))) demoEnv (demoSolver fun d => 3 / 10 < d) 1 13 s0 ≠
      .ok (.again s') := by
  obtain ⟨s0, hst, _⟩ := demo_start (some (demoAdaptive false)) (by decide) 0 [1 / 2, 1]
  have hst' : start (demoParams (some (demoAdaptive false))) demoEnv [0, 1 / 2, 1] (fun _ _ => 0) () () =
      .ok (1, s0) := by simpa using hst
  have h := C41_bound _ (demoAdaptive false) rfl rfl _ (demoSolver fun d => 3 / 10 < d) _ _ _ _ _ _ hst'
  have e : ([0, 1 / 2, 1] : List ℝ).length - 1 + 2 * (demoAdaptive false).maxTotal.toNat + 1 = 13 := rfl
  rw [e] at h
  exact ⟨s0, hst', h⟩

/-- Giving up does occur: every attempt fails on the small instance without adaptive stepping. -/
example : ∃ s0 s, start (demoParams none) demoEnv [0, 1] (fun _ _ => 0) () () = .ok (1, s0) ∧
    run (demoParams none) demoEnv (demoSolver fun _ => True) 1 1 s0 = .ok (.gaveUp s) := by
  obtain ⟨s0, hst, a1, a2, a3, _⟩ := demo_start none rfl 0 [1]
  obtain ⟨a, ha, hacc⟩ := demo_attempt (fun _ => True) none s0.predictor s0.vecs s0.step 0 1 (by norm_num)
  refine ⟨s0, afterAttempt s0 0 1 a, hst, ?_⟩
  have hp : pass (demoParams none) demoEnv (demoSolver fun _ => True) 1 s0 =
      .ok (.gaveUp (afterAttempt s0 0 1 a)) := by
    unfold pass
    rw [a1, a2]
    show (do
      let a ← attempt (demoParams none) demoEnv (demoSolver fun _ => True) s0.N s0.work s0.predictor
        s0.vecs s0.step (oldTime (demoParams none) s0) 1
      _ : Outcome (Next Unit Unit)) = _
    rw [a3, ha]
    simp only [Outcome.ok_bind]
    rw [if_neg (fun h => (hacc.mp h) trivial)]
    rfl
  rw [run, hp]
  rfl

end Verif.QuasiStatic
