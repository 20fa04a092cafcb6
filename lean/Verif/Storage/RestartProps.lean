import Verif.Storage.RestartLemmas

/-!
# Restart: properties
-/

noncomputable section

namespace Verif.Storage

open Verif Verif.BC
open scoped Classical

/-! ## C60: an analysis can be continued -/

/-- C60, for final times with at most six significant digits: after an analysis whose solvers follow
one another in time, an analysis that begins at the final time is accepted, begins at that time and
has the data that were there at the end.

What is missing: final times with more digits, see `C60_refused`. -/
theorem C60_partial {κ β : Type} {k : Nat} {disk : Disk β} (hdisk : Orderly k disk) {t tEnd : ℝ}
    {fresh live : Live κ β} {s : Session} {b : Bool}
    (hbegin : beginRestart disk t fresh = .ok (s, live, b)) (rs : List (Solved κ β))
    (hchain : Chained t rs tEnd) (r : Solved κ β) (hlast : rs.getLast? = some r)
    (hsix : SixDigits tEnd) (fresh' : Live κ β) :
    ∃ s' live', beginRestart (writeAll s disk rs).2 tEnd fresh' = .ok (s', live', true) ∧
      s'.time = tEnd ∧ Restores fresh' r.2.2 live' := by
  obtain ⟨hat, rfl⟩ := begin_at hdisk hbegin
  obtain ⟨g1, _, _, g4⟩ := writeAll_spec rs hat hchain
  obtain ⟨rest, hrest⟩ := g4 r hlast
  have hlen : k + rs.length = (k + rs.length - 1) + 1 := by
    cases rs with
    | nil => simp at hlast
    | cons q qs => rw [List.length_cons]; omega
  have hord := g1.1
  rw [hlen] at hord
  rw [begin_succ hord hrest, if_pos (by rw [record]; exact sig6_eq hsix)]
  exact ⟨_, _, rfl, rfl, rfl, rfl, rfl, rfl, rfl, rfl, rfl, rfl, rfl, rfl⟩

/-- The directories are named by six digits, and the names written for the first ones are those that
are looked for in the beginning. -/
theorem C60_names : (∀ n < 10 ^ 6, (restartName n).length = 14) ∧
    (∀ n, atoi (firstNumbers (restartName n)) = n) ∧
    String.ofList (restartName 0) = "restart-000000" ∧
    String.ofList (restartName 1) = "restart-000001" := by
  refine ⟨fun n hn => ?_, number_restartName, ?_, ?_⟩
  · rw [restartName, List.length_append, pad6_length hn]
    rfl
  · simp [restartName, pad6, digitChars]
  · simp [restartName, pad6, digitChars]
    rfl

/-- The only initial time that is accepted is the final time rounded to six significant digits. -/
theorem C60_accepted_iff {κ β : Type} {k : Nat} {disk : Disk β} (hdisk : Orderly k disk)
    {t tEnd : ℝ} {fresh live : Live κ β} {s : Session} {b : Bool}
    (hbegin : beginRestart disk t fresh = .ok (s, live, b)) (rs : List (Solved κ β))
    (hne : rs ≠ []) (hchain : Chained t rs tEnd) (fresh' : Live κ β) (t' : ℝ) :
    (∃ q, beginRestart (writeAll s disk rs).2 t' fresh' = .ok q) ↔ t' = sig6 tEnd := by
  obtain ⟨hat, rfl⟩ := begin_at hdisk hbegin
  obtain ⟨g1, _, _, g4⟩ := writeAll_spec rs hat hchain
  obtain ⟨rest, hrest⟩ := g4 (rs.getLast hne) (List.getLast?_eq_some_getLast hne)
  have hlen : k + rs.length = (k + rs.length - 1) + 1 := by
    have := List.length_pos_of_ne_nil hne
    omega
  have hord := g1.1
  rw [hlen] at hord
  rw [begin_succ hord hrest]
  have he : (record tEnd (rs.getLast hne).2.2).time.getD 0 = sig6 tEnd := rfl
  rw [he]
  constructor
  · rintro ⟨q, hq⟩
    by_contra hn
    rw [if_neg fun e => hn e.symm] at hq
    cases hq
  · intro e
    exact ⟨_, if_pos e.symm⟩

/-- The negation of C60: with a final time of more than six significant digits the continuation
that begins at the final time is refused. -/
theorem C60_refused {κ β : Type} {k : Nat} {disk : Disk β} (hdisk : Orderly k disk)
    {t tEnd : ℝ} {fresh live : Live κ β} {s : Session} {b : Bool}
    (hbegin : beginRestart disk t fresh = .ok (s, live, b)) (rs : List (Solved κ β))
    (hne : rs ≠ []) (hchain : Chained t rs tEnd) (hsix : ¬ SixDigits tEnd) (fresh' : Live κ β) :
    beginRestart (writeAll s disk rs).2 tEnd fresh' = .fail .runtimeError := by
  obtain ⟨hat, rfl⟩ := begin_at hdisk hbegin
  obtain ⟨g1, _, _, g4⟩ := writeAll_spec rs hat hchain
  obtain ⟨rest, hrest⟩ := g4 (rs.getLast hne) (List.getLast?_eq_some_getLast hne)
  have hlen : k + rs.length = (k + rs.length - 1) + 1 := by
    have := List.length_pos_of_ne_nil hne
    omega
  have hord := g1.1
  rw [hlen] at hord
  rw [begin_succ hord hrest, if_neg]
  intro he
  exact hsix ((sig6_eq_iff tEnd).1 he)

/-- Some state of an analysis. -/
def demoLive (c : ℝ) : Live Unit Nat :=
  { vecs := fun _ _ => c, a := fun _ => c, kept := (), blocks := 7 }

/-- Two solvers, up to the time `T`. -/
def demoSolved (T : ℝ) : List (Solved Unit Nat) := [(0, 0.25, demoLive 1), (0.25, T, demoLive 2)]

theorem demo_begin : beginRestart (β := Nat) [] 0 (demoLive 0) =
    .ok ({ path := restartName 0, time := 0 }, demoLive 0, false) :=
  begin_zero (by rfl) 0 _

/-- Two solvers up to the time 0.5, in an empty directory, and a restart at that time. -/
example : ∃ s' live', beginRestart (writeAll { path := restartName 0, time := 0 } []
      (demoSolved 0.5)).2 0.5 (demoLive 0) = .ok (s', live', true) ∧
      s'.time = 0.5 ∧ Restores (demoLive 0) (demoLive 2) live' :=
  C60_partial (k := 0) (by rfl) demo_begin (demoSolved 0.5) ⟨rfl, rfl, rfl⟩
    (0.25, 0.5, demoLive 2) rfl ⟨5, -1, by norm_num, by norm_num⟩ (demoLive 0)

theorem demo_not_six : ¬ SixDigits 1.234567 := by
  rintro ⟨m, e, hm, h⟩
  by_cases he : -6 ≤ e
  · by_cases h6 : e = -6
    · subst h6
      have h1 : (m : ℝ) = ((1234567 : ℤ) : ℝ) := by
        norm_num at h ⊢
        linarith
      have h2 : m = 1234567 := by exact_mod_cast h1
      subst h2
      norm_num at hm
    · obtain ⟨j, hj⟩ : ∃ j : ℕ, e = -6 + (j + 1 : ℕ) := ⟨(e + 5).toNat, by push_cast; omega⟩
      subst hj
      rw [zpow_add₀ (by norm_num), zpow_natCast, pow_succ] at h
      have h1 : ((1234567 : ℤ) : ℝ) = ((m * 10 ^ j * 10 : ℤ) : ℝ) := by
        push_cast
        norm_num at h ⊢
        linarith
      have h2 : (1234567 : ℤ) = m * 10 ^ j * 10 := by exact_mod_cast h1
      omega
  · have hm' : |(m : ℝ)| < 10 ^ 6 := by
      have : ((|m| : ℤ) : ℝ) < (((10 : ℤ) ^ 6 : ℤ) : ℝ) := by exact_mod_cast hm
      rw [Int.cast_abs] at this
      refine this.trans_le (le_of_eq ?_)
      norm_num
    have h10 : (10 : ℝ) ^ e ≤ (10 : ℝ) ^ (-6 : ℤ) :=
      zpow_le_zpow_right₀ (by norm_num) (by omega)
    have hpos : (0 : ℝ) < (10 : ℝ) ^ e := zpow_pos (by norm_num) _
    have h1 : |(m : ℝ) * (10 : ℝ) ^ e| < 1 := by
      rw [abs_mul, abs_of_pos hpos]
      calc |(m : ℝ)| * (10 : ℝ) ^ e < 10 ^ 6 * (10 : ℝ) ^ e :=
            mul_lt_mul_of_pos_right hm' hpos
        _ ≤ 10 ^ 6 * (10 : ℝ) ^ (-6 : ℤ) := mul_le_mul_of_nonneg_left h10 (by norm_num)
        _ = 1 := by norm_num
    rw [← h] at h1
    norm_num at h1

/-- Two solvers up to the time 1.234567: the restart at that time is refused. -/
example : beginRestart (writeAll { path := restartName 0, time := 0 } [] (demoSolved 1.234567)).2
    1.234567 (demoLive 0) = .fail .runtimeError :=
  C60_refused (k := 0) (by rfl) demo_begin (demoSolved 1.234567) (by simp [demoSolved])
    ⟨rfl, rfl, rfl⟩ demo_not_six (demoLive 0)

/-- The hypotheses of the equivalence. -/
example (t' : ℝ) : (∃ q, beginRestart (writeAll { path := restartName 0, time := 0 } []
    (demoSolved 0.5)).2 t' (demoLive 0) = .ok q) ↔ t' = sig6 0.5 :=
  C60_accepted_iff (k := 0) (by rfl) demo_begin (demoSolved 0.5) (by simp [demoSolved])
    ⟨rfl, rfl, rfl⟩ (demoLive 0) t'

/-! ## C95: directories already written are kept -/

/-- C95, if the directories are those written by the analyses so far: every solver writes a
directory that was not there, and the others are as before.

What is missing: directories that were removed, renamed or put there by the user, see
`C95_overwritten`. -/
theorem C95_partial {κ β : Type} {k : Nat} {disk : Disk β} (hdisk : Orderly k disk) {t tEnd : ℝ}
    {fresh live : Live κ β} {s : Session} {b : Bool}
    (hbegin : beginRestart disk t fresh = .ok (s, live, b)) (rs : List (Solved κ β))
    (hchain : Chained t rs tEnd) :
    (∃ news, (writeAll s disk rs).2 = news ++ disk ∧ news.length = rs.length) ∧
    Orderly (k + rs.length) (writeAll s disk rs).2 ∧
    ∀ name d, disk.find name = some d → (writeAll s disk rs).2.find name = some d := by
  obtain ⟨hat, rfl⟩ := begin_at hdisk hbegin
  obtain ⟨g1, _, ⟨news, g3, g3'⟩, _⟩ := writeAll_spec rs hat hchain
  refine ⟨⟨news, g3, g3'⟩, g1.1, ?_⟩
  intro name d hd
  have hmem : name ∈ disk.map Prod.fst := by
    rw [← find_isSome, hd]; rfl
  have hno : name ∉ news.map Prod.fst := by
    intro hin
    have hnd : ((news ++ disk).map Prod.fst).Nodup := by
      rw [← g3, g1.1]
      exact nodup_namesDown _
    rw [List.map_append, List.nodup_append] at hnd
    exact hnd.2.2 _ hin _ hmem rfl
  have hnone : List.find? (fun p : List Char × Stored β => p.1 = name) news = none := by
    rw [List.find?_eq_none]
    intro p hp he
    exact hno (List.mem_map.2 ⟨p, hp, by simpa using he⟩)
  rw [g3, Disk.find, List.find?_append, hnone, Option.none_or]
  exact hd

/-- One directory is there, another analysis is made. -/
example : ∃ (disk : Disk Nat) (s : Session) (live : Live Unit Nat), Orderly 2 disk ∧
    beginRestart disk 0.5 (demoLive 0) = .ok (s, live, true) ∧
    Chained 0.5 [((0.5 : ℝ), (1 : ℝ), demoLive 3)] 1 := by
  obtain ⟨s', live', h, _⟩ := C60_partial (k := 0) (by rfl) demo_begin (demoSolved 0.5)
    ⟨rfl, rfl, rfl⟩ (0.25, 0.5, demoLive 2) rfl ⟨5, -1, by norm_num, by norm_num⟩ (demoLive 0)
  exact ⟨_, s', live', (C95_partial (k := 0) (by rfl) demo_begin (demoSolved 0.5)
    ⟨rfl, rfl, rfl⟩).2.1, h, rfl, rfl⟩

/-- A directory the user has made. -/
def backup : List Char := "restart_backup".toList

/-- The negation of C95: if the most recent directory is one whose name has no number, the first
solver overwrites `restart-000001`. -/
theorem C95_overwritten : ∃ (disk : Disk Nat) (s : Session) (live : Live Unit Nat) (d : Stored Nat),
    beginRestart disk 0 (demoLive 0) = .ok (s, live, true) ∧
    disk.find (restartName 1) = some d ∧
    (writeAll s disk [(0, 1, demoLive 1)]).2.find (restartName 1) ≠ some d := by
  have hne : backup ≠ restartName 1 := by decide
  have hne' : restartName 1 ≠ backup := fun h => hne h.symm
  have hnum : atoi (firstNumbers backup) = 0 := by decide
  have hbegin : beginRestart [(backup, record 0 (demoLive 5)), (restartName 1, record 0 (demoLive 5))]
      0 (demoLive 0) = .ok ({ path := backup, time := 0 },
        restored (demoLive 0) (record 0 (demoLive 5)), true) := by
    have h0 : (record 0 (demoLive 5)).time.getD 0 = 0 := by
      show sig6 0 = 0
      rw [sig6, if_pos rfl]
    rw [beginRestart, if_pos (by rw [find_isSome]; simp), readRestart, if_neg (by simpa using h0),
      Outcome.ok_bind, h0]
  refine ⟨_, _, _, record 0 (demoLive 5), hbegin, ?_, ?_⟩
  · rw [Disk.find, List.find?_cons_of_neg (by simpa using hne), List.find?_cons_of_pos (by simp)]
    rfl
  · rw [writeAll, writeAll, writeRestart]
    dsimp only
    rw [hnum, Disk.put, if_pos (by simp)]
    rw [List.map_cons, List.map_cons, List.map_nil, if_neg hne, if_pos rfl, Disk.find,
      List.find?_cons_of_neg (by simpa using hne), List.find?_cons_of_pos (by simp)]
    intro h
    have := congrArg (fun d : Option (Stored Nat) => d.map fun d => d.a 0) h
    simp [record, demoLive] at this

/-! ## C96: explicit time integration in two parts -/

/-- C96, if the stop is at a multiple of the time step, with at most six significant digits: if the
analysis runs through, then so does the part up to the stop, the restart at the stop is accepted, and
the second part ends with the same displacements, velocities, positions, accelerations and time as
the analysis in one part.

It is assumed that the forces do not depend on the number of steps made, that what the restart does
not replace is in the new analysis as it was at the stop, and that what is copied into the blocks
before the time loop is copied again in each step.  What is missing: other stops, see `C96_lost`. -/
theorem C96_partial {κ β : Type} {k : Nat} {disk : Disk β} (hdisk : Orderly k disk)
    (P : Explicit.Params) (C : Ctx) (cs : Conditions) (eval : Explicit.Eval (κ × β))
    (reload : Vecs → κ × β → κ × β) (hfree : StepFree eval) (habs : Absorbs eval reload)
    (hdt : 0 < P.dt) (n : Nat) (T : ℝ) (hT : T = P.timeInitial + n * P.dt) (hTF : T ≤ P.timeFinal)
    (hsix : SixDigits T) {fresh live : Live κ β} {b : Bool} {session : Session}
    (hbegin : beginRestart disk P.timeInitial fresh = .ok (session, live, b))
    (vecs : Vecs) (blocks : κ × β) (s : Explicit.State (κ × β))
    (hs : Explicit.executeExplicit P C cs eval vecs blocks = .ok s) :
    ∃ s1, Explicit.executeExplicit { P with timeFinal := T } C cs eval vecs blocks = .ok s1 ∧
      ∀ fresh' : Live κ β, SameRest fresh' (liveOf s1) →
        ∃ session' live' s2,
          beginRestart (writeAll session disk [(P.timeInitial, T, liveOf s1)]).2 T fresh' =
            .ok (session', live', true) ∧
          resumeExplicit { P with timeInitial := T } C cs eval reload live' = .ok s2 ∧
          s2.vecs = s.vecs ∧ s2.a = s.a ∧ s2.time = s.time := by
  obtain ⟨N, hN, hs⟩ := Outcome.bind_eq_ok.1 hs
  obtain ⟨s0, hs0, hs⟩ := Outcome.bind_eq_ok.1 hs
  subst hT
  obtain ⟨hnN, hN1, hN2⟩ := numSteps_split hdt hTF hN
  obtain ⟨j, rfl⟩ := Nat.exists_eq_add_of_le hnN
  rw [Nat.add_sub_cancel_left] at hN2
  obtain ⟨s1, hs1⟩ := run_prefix j s hs
  have htime1 : s1.time = P.timeInitial + n * P.dt :=
    Explicit.run_time (Explicit.initialStep_ok hs0).1 n s1 hs1
  refine ⟨s1, Outcome.bind_eq_ok.2 ⟨n, hN1, Outcome.bind_eq_ok.2 ⟨s0, hs0, ?_⟩⟩, ?_⟩
  · rw [run_final]; exact hs1
  intro fresh' hrest
  obtain ⟨hat, htime⟩ := begin_at hdisk hbegin
  have hchain : Chained session.time [(P.timeInitial, P.timeInitial + n * P.dt, liveOf s1)]
      (P.timeInitial + n * P.dt) := ⟨htime.symm, rfl⟩
  obtain ⟨g1, _, _, g4⟩ := writeAll_spec _ hat hchain
  obtain ⟨rest, hrest'⟩ := g4 _ rfl
  have hb := begin_succ (t := P.timeInitial + n * P.dt) (fresh := fresh') g1.1 hrest'
  rw [if_pos (by rw [record]; exact sig6_eq hsix)] at hb
  have hv := restored_vecs (P.timeInitial + n * P.dt) hrest
  obtain ⟨s2, hs2, f1, f2, f3, _⟩ := run_split (P := P)
    (P' := { P with timeInitial := P.timeInitial + n * P.dt })
    (s1' := { vecs := (restored fresh' (record (P.timeInitial + n * P.dt) (liveOf s1))).vecs,
              a := (restored fresh' (record (P.timeInitial + n * P.dt) (liveOf s1))).a,
              time := P.timeInitial + n * P.dt,
              blocks := reload
                (restored fresh' (record (P.timeInitial + n * P.dt) (liveOf s1))).vecs
                (fresh'.kept, s1.blocks.2) })
    rfl rfl rfl rfl hfree hs1 hv rfl htime1.symm
    (fun k w => by rw [habs, hrest.1]; rfl) j s hs
  exact ⟨_, _, s2, hb, Outcome.bind_eq_ok.2 ⟨j, hN2, hs2⟩, f1, f2, f3⟩

/-- A body that moves freely. -/
def drift : Explicit.Eval (Unit × Nat) := fun b _ _ => .ok (b, fun _ => 0)

/-- Steps of size 1 from 0 to 3. -/
def driftParams : Explicit.Params :=
  { dt := 1, timeInitial := 0, timeFinal := 3, density := fun _ => 1, length := 3 }

/-- One node. -/
def driftCtx : Ctx := { owned := [0], sets := fun _ => none, x := fun _ => 0 }

/-- Velocity 1. -/
def driftVecs : Vecs := fun t _ => if t = .v then 1 else 0

theorem drift_steps (t0 T : ℝ) (n : Nat) (h0 : t0 + n ≤ T) (h1 : T < t0 + n + 1) (hn : n < 10) :
    Explicit.numSteps { driftParams with timeInitial := t0, timeFinal := T } = .ok n := by
  have hf : ⌊(T - t0) / 1⌋ = (n : ℤ) := by
    rw [div_one, Int.floor_eq_iff]
    push_cast
    constructor <;> linarith
  unfold Explicit.numSteps driftParams
  dsimp only
  rw [if_neg one_ne_zero, hf, if_neg (by unfold Explicit.intMax; omega),
    if_neg (by unfold Explicit.intMax; omega)]
  rfl

theorem drift_initial (t0 T : ℝ) : ∃ s, Explicit.initialStep
    { driftParams with timeInitial := t0, timeFinal := T } driftCtx {} drift driftVecs ((), 7) =
      .ok s ∧ (s.a = fun _ => 0) ∧ s.blocks = ((), 7) ∧ s.vecs .v = driftVecs .v ∧
      s.vecs .u = driftVecs .u ∧ s.vecs .temperature = fun _ => 0 := by
  unfold Explicit.initialStep applyBoundary applyForces
  refine ⟨_, Outcome.bind_eq_ok.2 ⟨_, rfl, Outcome.bind_eq_ok.2 ⟨_, rfl,
    Outcome.bind_eq_ok.2 ⟨_, rfl, Outcome.bind_eq_ok.2 ⟨fun _ => 0, ?_, rfl⟩⟩⟩⟩, rfl, rfl, ?_, ?_, ?_⟩
  · unfold Explicit.acceleration
    rw [if_neg (by simp [driftParams])]
    congr 1
    funext i
    simp [clearForce]
  · funext i; simp [clearForce]
  · funext i; simp [clearForce]
  · funext i; simp [clearForce, driftVecs]

/-- The analysis from `t0` to `T` with `n` steps. -/
theorem drift_run (T : ℝ) (n : Nat) (h0 : (n : ℝ) ≤ T) (h1 : T < n + 1) (hn : n < 10) :
    ∃ s, Explicit.executeExplicit { driftParams with timeFinal := T } driftCtx {} drift driftVecs
      ((), 7) = .ok s ∧ (s.a = fun _ => 0) ∧ s.blocks = ((), 7) ∧ s.vecs .v = driftVecs .v ∧
      ∀ i, s.vecs .u i = n := by
  obtain ⟨s0, hs0, ha, hb, hv, hu, _⟩ := drift_initial 0 T
  obtain ⟨s, hs, g1, g2, g3, g4⟩ := run_drift (P := { driftParams with timeFinal := T })
    (C := driftCtx) ((), 7) (by simp [driftParams]) s0 ha hb n
  refine ⟨s, Outcome.bind_eq_ok.2 ⟨n, ?_, Outcome.bind_eq_ok.2 ⟨s0, hs0, hs⟩⟩, g1, g2,
    g3.trans hv, ?_⟩
  · exact drift_steps 0 T n (by linarith) (by linarith) hn
  · intro i
    rw [g4, hu, hv]
    simp [driftVecs, driftParams]

/-- A stop after one of three steps. -/
example : ∃ s, Explicit.executeExplicit driftParams driftCtx {} drift driftVecs ((), 7) = .ok s ∧
    ∃ s1, Explicit.executeExplicit { driftParams with timeFinal := 1 } driftCtx {} drift driftVecs
      ((), 7) = .ok s1 ∧
      ∃ session' live' s2,
        beginRestart (writeAll { path := restartName 0, time := 0 } [] [(0, 1, liveOf s1)]).2 1
          (liveOf s1) = .ok (session', live', true) ∧
        resumeExplicit { driftParams with timeInitial := 1 } driftCtx {} drift (fun _ b => b) live' =
          .ok s2 ∧
        s2.vecs = s.vecs ∧ s2.a = s.a ∧ s2.time = s.time := by
  obtain ⟨s, hs, _⟩ := drift_run 3 3 (by norm_num) (by norm_num) (by norm_num)
  have hs' : Explicit.executeExplicit driftParams driftCtx {} drift driftVecs ((), 7) = .ok s := hs
  obtain ⟨s1, h1, h2⟩ := C96_partial (k := 0) (by rfl) driftParams driftCtx {} drift (fun _ b => b)
    (fun _ _ _ _ => rfl) (fun _ _ _ _ => rfl) (by norm_num [driftParams]) 1 1
    (by norm_num [driftParams]) (by norm_num [driftParams]) ⟨1, 0, by norm_num, by norm_num⟩
    demo_begin driftVecs ((), 7) s hs'
  exact ⟨s, hs', s1, h1, h2 (liveOf s1) ⟨rfl, fun _ _ => rfl⟩⟩

/-- The negation of C96: a free body with velocity 1 and steps of size 1 that is stopped at 1.5 and
restarted is at time 3 at another place than without the stop. -/
theorem C96_lost : ∃ s s1 s2,
    Explicit.executeExplicit driftParams driftCtx {} drift driftVecs ((), 7) = .ok s ∧
    Explicit.executeExplicit { driftParams with timeFinal := 1.5 } driftCtx {} drift driftVecs
      ((), 7) = .ok s1 ∧
    (∃ session' live',
      beginRestart (writeAll { path := restartName 0, time := 0 } [] [(0, 1.5, liveOf s1)]).2 1.5
        (liveOf s1) = .ok (session', live', true) ∧
      resumeExplicit { driftParams with timeInitial := 1.5 } driftCtx {} drift (fun _ b => b) live' =
        .ok s2) ∧
    s.vecs .u 0 = 3 ∧ s2.vecs .u 0 = 2 := by
  obtain ⟨s, hs, _, _, _, hu⟩ := drift_run 3 3 (by norm_num) (by norm_num) (by norm_num)
  obtain ⟨s1, hs1, ha1, hb1, hv1, hu1⟩ := drift_run 1.5 1 (by norm_num) (by norm_num) (by norm_num)
  have hat : At (β := Nat) 0 { path := restartName 0, time := 0 } [] := ⟨rfl, rfl⟩
  obtain ⟨g1, _, _, g4⟩ := writeAll_spec [((0 : ℝ), (1.5 : ℝ), liveOf s1)] hat (tEnd := 1.5) ⟨rfl, rfl⟩
  obtain ⟨rest, hrest⟩ := g4 _ rfl
  have hb := begin_succ (t := 1.5) (fresh := liveOf s1) g1.1 hrest
  rw [if_pos (by rw [record]; exact sig6_eq ⟨15, -1, by norm_num, by norm_num⟩)] at hb
  have hv : (restored (liveOf s1) (record 1.5 (liveOf s1))).vecs = s1.vecs :=
    restored_vecs 1.5 ⟨rfl, fun _ _ => rfl⟩
  obtain ⟨s2, hs2, _, _, _, hu2⟩ := run_drift (P := { driftParams with timeInitial := 1.5 })
    (C := driftCtx) s1.blocks (by simp [driftParams])
    { vecs := (restored (liveOf s1) (record 1.5 (liveOf s1))).vecs, a := s1.a, time := 1.5,
      blocks := s1.blocks } ha1 rfl 1
  refine ⟨s, s1, s2, hs, hs1, ⟨_, _, hb, Outcome.bind_eq_ok.2 ⟨1, ?_, hs2⟩⟩, ?_, ?_⟩
  · exact drift_steps 1.5 3 1 (by norm_num) (by norm_num) (by norm_num)
  · rw [hu]; norm_num
  · rw [hu2, hv, hu1, hv1]
    norm_num [driftParams, driftVecs]

end Verif.Storage
