import Verif.Storage.RestartSpec
import Verif.Explicit.Lemmas
import Mathlib.Tactic.FieldSimp
import Mathlib.Tactic.Ring
import Mathlib.Tactic.Linarith
import Mathlib.Tactic.IntervalCases
import Mathlib.Tactic.NormNum

noncomputable section

namespace Verif.Storage

open Verif Verif.BC
open scoped Classical

/-! ### Names -/

theorem digitChar_spec {d : Nat} (h : d < 10) :
    (Nat.digitChar d).isDigit = true ∧ (Nat.digitChar d).toNat - 48 = d := by
  interval_cases d <;> decide

theorem digitChars_isDigit (n : Nat) : ∀ c ∈ digitChars n, c.isDigit = true := by
  intro c hc
  obtain ⟨d, hd, rfl⟩ := List.mem_map.1 hc
  exact (digitChar_spec (Nat.digits_lt_base (by norm_num) (List.mem_reverse.1 hd))).1

theorem pad6_isDigit (n : Nat) : ∀ c ∈ pad6 n, c.isDigit = true := by
  intro c hc
  rcases List.mem_append.1 hc with h | h
  · rw [List.eq_of_mem_replicate h]; decide
  · exact digitChars_isDigit n c h

theorem firstNumbers_restartName (n : Nat) : firstNumbers (restartName n) = pad6 n := by
  rw [firstNumbers, restartName, List.dropWhile_append_of_pos (by decide)]
  have h1 : (pad6 n).dropWhile (fun c => !c.isDigit) = pad6 n := by
    cases h : pad6 n with
    | nil => rfl
    | cons c cs =>
      have := pad6_isDigit n c (by rw [h]; simp)
      rw [List.dropWhile_cons_of_neg (by simp [this])]
  rw [h1]
  have h2 := pad6_isDigit n
  generalize pad6 n = l at h2
  induction l with
  | nil => rfl
  | cons c cs ih =>
    rw [List.takeWhile_cons_of_pos (by simpa using h2 c (by simp)),
      ih fun d hd => h2 d (by simp [hd])]

theorem foldl_digits (ds : List Nat) (h : ∀ d ∈ ds, d < 10) (acc : Nat) :
    (ds.map Nat.digitChar).foldl (fun acc c => 10 * acc + (c.toNat - 48)) acc =
      ds.foldl (fun acc d => 10 * acc + d) acc := by
  induction ds generalizing acc with
  | nil => rfl
  | cons d ds ih =>
    rw [List.map_cons, List.foldl_cons, List.foldl_cons, (digitChar_spec (h d (by simp))).2,
      ih fun e he => h e (by simp [he])]

theorem atoi_pad6 (n : Nat) : atoi (pad6 n) = n := by
  have h0 : ∀ k : Nat, (List.replicate k '0').foldl
      (fun acc c => 10 * acc + (c.toNat - 48)) 0 = 0 := by
    intro k
    induction k with
    | zero => rfl
    | succ k ih =>
      rw [List.replicate_succ, List.foldl_cons]
      exact ih
  rw [atoi, pad6, List.foldl_append, h0, digitChars,
    foldl_digits _ fun d hd => Nat.digits_lt_base (by norm_num) (List.mem_reverse.1 hd)]
  rw [List.foldl_reverse]
  have := Nat.ofDigits_digits 10 n
  rw [Nat.ofDigits_eq_foldr] at this
  conv_rhs => rw [← this]
  congr 1
  funext x y
  rw [Nat.cast_id]
  omega

theorem pad6_length {n : Nat} (h : n < 10 ^ 6) : (pad6 n).length = 6 := by
  have : (digitChars n).length ≤ 6 := by
    rw [digitChars, List.length_map, List.length_reverse]
    by_cases h0 : n = 0
    · subst h0; simp
    · rw [Nat.digits_len 10 n (by norm_num) h0]
      have := Nat.log_lt_of_lt_pow h0 h
      omega
  rw [pad6, List.length_append, List.length_replicate]
  omega

theorem number_restartName (n : Nat) : atoi (firstNumbers (restartName n)) = n := by
  rw [firstNumbers_restartName, atoi_pad6]

theorem restartName_inj {m n : Nat} (h : restartName m = restartName n) : m = n := by
  rw [← number_restartName m, h, number_restartName]

/-! ### Time -/

theorem sixDigits_sig6 (t : ℝ) : SixDigits (sig6 t) := by
  rw [sig6]
  split
  · exact ⟨0, 0, by norm_num, by simp⟩
  · next h =>
    have hpos : 0 < |t| := abs_pos.2 h
    set e := Int.log 10 |t| with he
    have h10 : (0 : ℝ) < (10 : ℝ) ^ (e - 5) := zpow_pos (by norm_num) _
    have hlt : |t| < (10 : ℝ) ^ (e + 1) := by
      have := Int.lt_zpow_succ_log_self (b := 10) (by norm_num) |t|
      simpa using this
    have hq : |t / (10 : ℝ) ^ (e - 5)| < 10 ^ 6 := by
      rw [abs_div, abs_of_pos h10, div_lt_iff₀ h10]
      have : (10 : ℝ) ^ 6 * (10 : ℝ) ^ (e - 5) = (10 : ℝ) ^ (e + 1) := by
        rw [← zpow_natCast, ← zpow_add₀ (by norm_num)]
        congr 1
        push_cast
        ring
      rw [this]
      exact hlt
    have hr : |round (t / (10 : ℝ) ^ (e - 5))| ≤ (10 : ℤ) ^ 6 := by
      have h1 := abs_sub_round (t / (10 : ℝ) ^ (e - 5))
      have h2 : |((round (t / (10 : ℝ) ^ (e - 5)) : ℤ) : ℝ)| < 10 ^ 6 + 1 := by
        have := abs_sub_abs_le_abs_sub ((round (t / (10 : ℝ) ^ (e - 5)) : ℤ) : ℝ)
          (t / (10 : ℝ) ^ (e - 5))
        rw [abs_sub_comm] at this
        linarith
      have h3 : |round (t / (10 : ℝ) ^ (e - 5))| < (10 : ℤ) ^ 6 + 1 := by
        have : ((|round (t / (10 : ℝ) ^ (e - 5))| : ℤ) : ℝ) < (((10 : ℤ) ^ 6 + 1 : ℤ) : ℝ) := by
          push_cast
          norm_num at h2 ⊢
          exact h2
        exact_mod_cast this
      omega
    rcases hr.lt_or_eq with hr | hr
    · exact ⟨_, e - 5, hr, rfl⟩
    · rcases abs_eq (by norm_num : (0 : ℤ) ≤ 10 ^ 6) |>.1 hr with h' | h'
      · refine ⟨1, e + 1, by norm_num, ?_⟩
        rw [h', Int.cast_pow, Int.cast_ofNat, Int.cast_one, one_mul, ← zpow_natCast,
          ← zpow_add₀ (by norm_num)]
        congr 1
        push_cast
        ring
      · refine ⟨-1, e + 1, by norm_num, ?_⟩
        rw [h', Int.cast_neg, Int.cast_neg, Int.cast_pow, Int.cast_ofNat, Int.cast_one,
          ← zpow_natCast, neg_mul, neg_mul, one_mul, ← zpow_add₀ (by norm_num)]
        congr 2
        push_cast
        ring

theorem sig6_eq {t : ℝ} (h : SixDigits t) : sig6 t = t := by
  obtain ⟨m, k, hm, rfl⟩ := h
  rw [sig6]
  split
  · next h => exact h.symm
  · next h =>
    have hm0 : m ≠ 0 := by
      rintro rfl
      simp at h
    have h10k : (0 : ℝ) < (10 : ℝ) ^ k := zpow_pos (by norm_num) _
    have hpos : 0 < |(m : ℝ) * (10 : ℝ) ^ k| := abs_pos.2 h
    set e := Int.log 10 |(m : ℝ) * (10 : ℝ) ^ k| with he
    have hle : (10 : ℝ) ^ e ≤ |(m : ℝ) * (10 : ℝ) ^ k| := by
      have := Int.zpow_log_le_self (b := 10) (by norm_num) hpos
      rw [he]
      exact_mod_cast this
    have hlt : |(m : ℝ) * (10 : ℝ) ^ k| < (10 : ℝ) ^ (6 + k) := by
      rw [abs_mul, abs_of_pos h10k, zpow_add₀ (by norm_num)]
      refine mul_lt_mul_of_pos_right ?_ h10k
      have : ((|m| : ℤ) : ℝ) < (((10 : ℤ) ^ 6 : ℤ) : ℝ) := by exact_mod_cast hm
      rw [Int.cast_abs] at this
      refine this.trans_le (le_of_eq ?_)
      norm_num
    have hek : e - 5 ≤ k := by
      have := (zpow_lt_zpow_iff_right₀ (by norm_num : (1 : ℝ) < 10)).1 (hle.trans_lt hlt)
      omega
    have hdiv : (m : ℝ) * (10 : ℝ) ^ k / (10 : ℝ) ^ (e - 5) =
        ((m * 10 ^ (k - (e - 5)).toNat : ℤ) : ℝ) := by
      have h10 : (10 : ℝ) ^ (e - 5) ≠ 0 := (zpow_pos (by norm_num) _).ne'
      rw [div_eq_iff h10]
      push_cast
      rw [← zpow_natCast, mul_assoc, ← zpow_add₀ (by norm_num), Int.toNat_of_nonneg (by omega)]
      congr 2
      ring
    rw [hdiv, round_intCast, ← hdiv]
    exact div_mul_cancel₀ _ (zpow_pos (by norm_num) _).ne'

theorem sig6_eq_iff (t : ℝ) : sig6 t = t ↔ SixDigits t :=
  ⟨fun h => h ▸ sixDigits_sig6 t, sig6_eq⟩

/-! ### Directories -/

theorem mem_namesDown {k : Nat} {name : List Char} :
    name ∈ namesDown k ↔ ∃ i, i < k ∧ name = restartName (i + 1) := by
  induction k with
  | zero => simp [namesDown]
  | succ k ih =>
    rw [namesDown, List.mem_cons, ih]
    constructor
    · rintro (rfl | ⟨i, hi, rfl⟩)
      · exact ⟨k, by omega, rfl⟩
      · exact ⟨i, by omega, rfl⟩
    · rintro ⟨i, hi, rfl⟩
      by_cases h : i = k
      · subst h; exact Or.inl rfl
      · exact Or.inr ⟨i, by omega, rfl⟩

theorem fresh_name (k : Nat) : restartName (k + 1) ∉ namesDown k := by
  rw [mem_namesDown]
  rintro ⟨i, hi, h⟩
  have := restartName_inj h
  omega

theorem nodup_namesDown (k : Nat) : (namesDown k).Nodup := by
  induction k with
  | zero => exact List.nodup_nil
  | succ k ih => exact List.nodup_cons.2 ⟨fresh_name k, ih⟩

theorem find_isSome {β : Type} (disk : Disk β) (name : List Char) :
    (disk.find name).isSome ↔ name ∈ disk.map Prod.fst := by
  rw [Disk.find, Option.isSome_map, List.find?_isSome]
  constructor
  · rintro ⟨p, hp, h⟩
    exact List.mem_map.2 ⟨p, hp, by simpa using h⟩
  · intro h
    obtain ⟨p, hp, h⟩ := List.mem_map.1 h
    exact ⟨p, hp, by simpa using h⟩

theorem put_fresh {β : Type} {disk : Disk β} {name : List Char} (d : Stored β)
    (h : name ∉ disk.map Prod.fst) : disk.put name d = (name, d) :: disk := by
  rw [Disk.put, if_neg h]

/-- What is stored for a state. -/
def record {κ β : Type} (t : ℝ) (live : Live κ β) : Stored β :=
  { time := some (sig6 t), vecs := live.vecs, a := live.a, blocks := live.blocks }

/-- The session that goes with `k` directories. -/
def At {β : Type} (k : Nat) (s : Session) (disk : Disk β) : Prop :=
  Orderly k disk ∧ s.path = restartName k

theorem writeRestart_eq {κ β : Type} {k : Nat} {s : Session} {disk : Disk β} (h : At k s disk)
    (t0 t1 : ℝ) (live : Live κ β) : writeRestart s t0 t1 live disk =
      ({ path := restartName (k + 1), time := s.time + (t1 - t0) },
       (restartName (k + 1), record (s.time + (t1 - t0)) live) :: disk) := by
  rw [writeRestart]
  rw [h.2, number_restartName, put_fresh]
  · rfl
  · rw [h.1]
    exact fresh_name k

theorem writeRestart_at {κ β : Type} {k : Nat} {s : Session} {disk : Disk β} (h : At k s disk)
    (t0 t1 : ℝ) (live : Live κ β) :
    At (k + 1) (writeRestart s t0 t1 live disk).1 (writeRestart s t0 t1 live disk).2 := by
  rw [writeRestart_eq h]
  refine ⟨?_, rfl⟩
  rw [Orderly, List.map_cons, h.1, namesDown]

theorem writeAll_spec {κ β : Type} (rs : List (Solved κ β)) {k : Nat} {s : Session} {disk : Disk β}
    (h : At k s disk) {tEnd : ℝ} (hc : Chained s.time rs tEnd) :
    At (k + rs.length) (writeAll s disk rs).1 (writeAll s disk rs).2 ∧
    (writeAll s disk rs).1.time = tEnd ∧
    (∃ news, (writeAll s disk rs).2 = news ++ disk ∧ news.length = rs.length) ∧
    ∀ r, rs.getLast? = some r → ∃ rest, (writeAll s disk rs).2 =
      (restartName (k + rs.length), record tEnd r.2.2) :: rest := by
  induction rs generalizing k s disk with
  | nil =>
    exact ⟨h, hc, ⟨[], rfl, rfl⟩, by simp⟩
  | cons r rs ih =>
    have h' := writeRestart_at h r.1 r.2.1 r.2.2
    have htime : (writeRestart s r.1 r.2.1 r.2.2 disk).1.time = r.2.1 := by
      rw [writeRestart_eq h]
      have := hc.1
      dsimp only
      rw [this]
      ring
    have hc' : Chained (writeRestart s r.1 r.2.1 r.2.2 disk).1.time rs tEnd := by
      rw [htime]; exact hc.2
    obtain ⟨g1, g2, ⟨news, g3, g4⟩, g5⟩ := ih h' hc'
    have hlen : k + (r :: rs).length = k + 1 + rs.length := by
      rw [List.length_cons]; omega
    rw [writeAll, hlen]
    refine ⟨g1, g2, ?_, ?_⟩
    · refine ⟨news ++ [(restartName (k + 1), record (s.time + (r.2.1 - r.1)) r.2.2)], ?_, by simp [g4]⟩
      rw [g3, List.append_assoc]
      congr 1
      rw [writeRestart_eq h]
      rfl
    · intro r' hr'
      by_cases hn : rs = []
      · subst hn
        have e : r = r' := by simpa using hr'
        subst e
        refine ⟨disk, ?_⟩
        rw [writeAll, writeRestart_eq h]
        have e1 := hc.1
        have e2 : r.2.1 = tEnd := hc.2
        dsimp only [List.length_nil, Nat.add_zero]
        rw [show s.time + (r.2.1 - r.1) = tEnd by rw [e1, e2]; ring]
      · obtain ⟨q, qs, rfl⟩ := List.exists_cons_of_ne_nil hn
        rw [List.getLast?_cons_cons] at hr'
        exact g5 r' hr'

theorem begin_zero {κ β : Type} {disk : Disk β} (h : Orderly 0 disk) (t : ℝ) (fresh : Live κ β) :
    beginRestart disk t fresh = .ok ({ path := restartName 0, time := t }, fresh, false) := by
  have : disk = [] := List.map_eq_nil_iff.1 h
  subst this
  rw [beginRestart, if_neg (by simp [Disk.find])]

theorem begin_succ {κ β : Type} {k : Nat} {disk rest : Disk β} {d : Stored β} {name : List Char}
    (h : Orderly (k + 1) disk) (hd : disk = (name, d) :: rest) (t : ℝ) (fresh : Live κ β) :
    beginRestart disk t fresh = if d.time.getD 0 = t then
      .ok ({ path := restartName (k + 1), time := t }, restored fresh d, true)
      else .fail .runtimeError := by
  subst hd
  have hname : name = restartName (k + 1) := by
    rw [Orderly, List.map_cons, namesDown] at h
    exact (List.cons.inj h).1
  have hsome : (Disk.find ((name, d) :: rest) (restartName 1)).isSome := by
    rw [find_isSome]
    rw [Orderly] at h
    rw [h, mem_namesDown]
    exact ⟨0, by omega, rfl⟩
  rw [beginRestart, if_pos hsome, readRestart]
  by_cases he : d.time.getD 0 = t
  · rw [if_neg (by simpa using he), if_pos he, Outcome.ok_bind, he, hname]
  · rw [if_pos he, if_neg he]
    rfl

/-- A session that has begun is at the last directory, with the initial time. -/
theorem begin_at {κ β : Type} {k : Nat} {disk : Disk β} (h : Orderly k disk) {t : ℝ}
    {fresh live : Live κ β} {s : Session} {b : Bool}
    (hb : beginRestart disk t fresh = .ok (s, live, b)) : At k s disk ∧ s.time = t := by
  rcases k with _ | k
  · rw [begin_zero h] at hb
    cases hb
    exact ⟨⟨h, rfl⟩, rfl⟩
  · obtain ⟨p, rest, hd⟩ : ∃ p rest, disk = p :: rest := by
      cases disk with
      | nil => simp [Orderly, namesDown] at h
      | cons p rest => exact ⟨p, rest, rfl⟩
    obtain ⟨name, d⟩ := p
    rw [begin_succ h hd] at hb
    split at hb
    · cases hb
      exact ⟨⟨h, rfl⟩, rfl⟩
    · cases hb

/-! ### Explicit time integration -/

open Explicit in
theorem advance_same {σ : Type} {P P' : Params} {C : Ctx} {cs : Conditions} {eval : Eval σ}
    {s s' r : State σ} {m j : Nat} (hdt : P'.dt = P.dt) (hd : P'.density = P.density)
    (hl : P'.length = P.length) (htime : P'.timeInitial + j * P.dt = P.timeInitial + m * P.dt)
    (hfree : StepFree eval) (hv : s'.vecs = s.vecs) (ha : s'.a = s.a) (ht : s'.time = s.time)
    (hb : ∀ k w, eval s'.blocks k w = eval s.blocks k w)
    (h : advance P C cs eval s m = .ok r) : advance P' C cs eval s' j = .ok r := by
  have hp : predictor P' C cs s' (P'.timeInitial + j * P'.dt) =
      predictor P C cs s (P.timeInitial + m * P.dt) := by
    rw [hdt, htime]
    unfold predictor
    rw [hv, ha, ht, hdt]
  have hacc : ∀ f e, acceleration P' f e = acceleration P f e := by
    intro f e
    unfold acceleration
    rw [hl, hd]
  unfold advance at h ⊢
  obtain ⟨w, hw, h⟩ := Outcome.bind_eq_ok.1 h
  obtain ⟨q, hq, h⟩ := Outcome.bind_eq_ok.1 h
  obtain ⟨a, hac, h⟩ := Outcome.bind_eq_ok.1 h
  refine Outcome.bind_eq_ok.2 ⟨w, by rw [hp]; exact hw, Outcome.bind_eq_ok.2 ⟨q, ?_,
    Outcome.bind_eq_ok.2 ⟨a, by rw [hacc]; exact hac, ?_⟩⟩⟩
  · rw [hb, hfree _ j m]; exact hq
  · rw [hdt, htime]; exact h

open Explicit in
/-- Stopping after `n` steps and going on from the same vectors gives the same as going on at
once. -/
theorem run_split {σ : Type} {P P' : Params} {C : Ctx} {cs : Conditions} {eval : Eval σ}
    {s0 s1 s1' : State σ} {n : Nat} (hdt : P'.dt = P.dt) (hd : P'.density = P.density)
    (hl : P'.length = P.length) (htime : P'.timeInitial = P.timeInitial + n * P.dt)
    (hfree : StepFree eval) (hrun : run P C cs eval s0 n = .ok s1)
    (hv : s1'.vecs = s1.vecs) (ha : s1'.a = s1.a) (ht : s1'.time = s1.time)
    (hb : ∀ k w, eval s1'.blocks k w = eval s1.blocks k w) :
    ∀ (j : Nat) (s : State σ), run P C cs eval s0 (n + j) = .ok s →
      ∃ s', run P' C cs eval s1' j = .ok s' ∧ s'.vecs = s.vecs ∧ s'.a = s.a ∧ s'.time = s.time ∧
        ∀ k w, eval s'.blocks k w = eval s.blocks k w := by
  intro j
  induction j with
  | zero =>
    intro s hs
    have e := ok_inj (hrun.symm.trans hs)
    subst e
    exact ⟨s1', rfl, hv, ha, ht, hb⟩
  | succ j ih =>
    intro s hs
    obtain ⟨q, hq, hs⟩ := run_succ hs
    obtain ⟨q', hq', g1, g2, g3, g4⟩ := ih q hq
    refine ⟨s, Outcome.bind_eq_ok.2 ⟨q', hq', ?_⟩, rfl, rfl, rfl, fun _ _ => rfl⟩
    refine advance_same (m := n + j + 1) hdt hd hl ?_ hfree g1 g2 g3 g4 hs
    rw [htime]
    push_cast
    ring

open Explicit in
theorem run_prefix {σ : Type} {P : Params} {C : Ctx} {cs : Conditions} {eval : Eval σ}
    {s0 : State σ} {n : Nat} : ∀ (j : Nat) (s : State σ), run P C cs eval s0 (n + j) = .ok s →
      ∃ s1, run P C cs eval s0 n = .ok s1 := by
  intro j
  induction j with
  | zero => intro s hs; exact ⟨s, hs⟩
  | succ j ih =>
    intro s hs
    obtain ⟨q, hq, _⟩ := run_succ hs
    exact ih q hq

open Explicit in
theorem run_final {σ : Type} {P : Params} {C : Ctx} {cs : Conditions} {eval : Eval σ}
    {s0 : State σ} {n : Nat} (T : ℝ) :
    run { P with timeFinal := T } C cs eval s0 n = run P C cs eval s0 n := by
  induction n with
  | zero => rfl
  | succ n ih => rw [run, run, ih]; rfl

open Explicit in
theorem numSteps_ok {P : Params} {N : Nat} (h : numSteps P = .ok N) :
    P.dt ≠ 0 ∧ N = ⌊(P.timeFinal - P.timeInitial) / P.dt⌋.toNat ∧
    ⌊(P.timeFinal - P.timeInitial) / P.dt⌋ < intMax := by
  unfold numSteps at h
  split at h
  · cases h
  split at h
  · cases h
  split at h
  · cases h
  · refine ⟨by assumption, (ok_inj h).symm, by omega⟩

open Explicit in
/-- A stop after `n` steps divides the number of steps. -/
theorem numSteps_split {P : Params} {N n : Nat} (hdt : 0 < P.dt)
    (hT : P.timeInitial + n * P.dt ≤ P.timeFinal) (h : numSteps P = .ok N) :
    n ≤ N ∧ numSteps { P with timeFinal := P.timeInitial + n * P.dt } = .ok n ∧
    numSteps { P with timeInitial := P.timeInitial + n * P.dt } = .ok (N - n) := by
  obtain ⟨h0, hN, hlt⟩ := numSteps_ok h
  have hn : (n : ℤ) ≤ ⌊(P.timeFinal - P.timeInitial) / P.dt⌋ := by
    rw [Int.le_floor, le_div_iff₀ hdt]
    push_cast
    linarith
  have e1 : (P.timeInitial + n * P.dt - P.timeInitial) / P.dt = (n : ℤ) := by
    push_cast
    field_simp
    ring
  have e2 : (P.timeFinal - (P.timeInitial + n * P.dt)) / P.dt =
      (P.timeFinal - P.timeInitial) / P.dt - (n : ℤ) := by
    push_cast
    field_simp
    ring
  refine ⟨by omega, ?_, ?_⟩
  · unfold numSteps
    dsimp only
    rw [if_neg h0, e1, Int.floor_intCast, if_neg (by unfold intMax; omega), if_neg (by omega)]
    rfl
  · unfold numSteps
    dsimp only
    rw [if_neg h0, e2, Int.floor_sub_intCast, if_neg (by unfold intMax; omega),
      if_neg (by omega), hN]
    congr 1
    omega

open Explicit in
/-- A run of a body on which no force acts. -/
theorem run_drift {σ : Type} {P : Params} {C : Ctx} (b : σ)
    (hd : ∀ i < P.length, P.density (i / 3) ≠ 0) (s0 : State σ) (h0 : s0.a = fun _ => 0)
    (hb : s0.blocks = b) (n : Nat) :
    ∃ s, run P C {} (fun b _ _ => .ok (b, fun _ => 0)) s0 n = .ok s ∧ (s.a = fun _ => 0) ∧
      s.blocks = b ∧ s.vecs .v = s0.vecs .v ∧
      ∀ i, s.vecs .u i = s0.vecs .u i + n * P.dt * s0.vecs .v i := by
  induction n with
  | zero => exact ⟨s0, rfl, h0, hb, rfl, fun i => by simp⟩
  | succ n ih =>
    obtain ⟨s, hs, ha, hbs, hv, hu⟩ := ih
    have hacc : ∀ e : Nat → ℝ, (∀ i, e i = 0) → acceleration P (fun _ => 0) e = .ok fun _ => 0 := by
      intro e he
      unfold acceleration
      rw [if_neg (by rintro ⟨i, hi, h⟩; exact hd i hi h)]
      congr 1
      funext i
      rw [he]
      simp
    have hadv : ∃ s', advance P C {} (fun b _ _ => .ok (b, fun _ => 0)) s (n + 1) = .ok s' ∧
        (s'.a = fun _ => 0) ∧ s'.blocks = b ∧ s'.vecs .v = s0.vecs .v ∧
        ∀ i, s'.vecs .u i = s.vecs .u i + P.dt * s0.vecs .v i := by
      unfold advance predictor applyBoundary applyForces
      refine ⟨_, Outcome.bind_eq_ok.2 ⟨_, rfl, Outcome.bind_eq_ok.2 ⟨_, rfl,
        Outcome.bind_eq_ok.2 ⟨_, hacc _ ?_, rfl⟩⟩⟩, rfl, hbs, ?_, ?_⟩
      · intro i; simp [setVec, clearForce]
      · funext i; simp [setVec, clearForce, axpy, ha, hv]
      · intro i; simp [setVec, clearForce, axpy, ha, hv]
    obtain ⟨s', h1, h2, h3, h4, h5⟩ := hadv
    refine ⟨s', Outcome.bind_eq_ok.2 ⟨s, hs, h1⟩, h2, h3, h4, ?_⟩
    intro i
    rw [h5, hu]
    push_cast
    ring

theorem restored_vecs {κ β : Type} {fresh old : Live κ β} (t : ℝ) (h : SameRest fresh old) :
    (restored fresh (record t old)).vecs = old.vecs := by
  funext v
  rw [restored]
  dsimp only
  by_cases hv : savedVec v = true
  · rw [if_pos hv]; rfl
  · rw [if_neg hv]; exact h.2 v (by simpa using hv)

end Verif.Storage
