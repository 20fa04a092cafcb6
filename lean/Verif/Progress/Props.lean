import Verif.Progress.Lemmas

/-!
# C244: the display of progress
-/

namespace Verif.Progress

/-- C244: after any number of calls with a title without control characters and percentages up to 100, begun on an empty
line (whether or not the function has been called before), the line holds exactly the bar of the last call, and the lines
above are those from before. -/
theorem C244_shows {title : List Char} (ht : ∀ c ∈ title, c ≠ '\x08' ∧ c ≠ '\n') (first : Bool) (ps : List Nat)
    (p : Nat) (hp : ∀ q ∈ ps ++ [p], q ≤ 100) (above : List (List Char)) :
    let t := (⟨above, [], 0⟩ : Terminal).write (display title first (ps ++ [p])).2
    t.above = above ∧ t.Shows (bar title p) := by
  have := (display_shows ht ps (fun q hq => hp q (List.mem_append_left _ hq)) (hp p (by simp)) (first := first)
    (t := ⟨above, [], 0⟩) rfl (by cases first <;> simp)).2
  rw [this]
  exact ⟨rfl, rfl, rfl⟩

/-- All percentages of an analysis of three steps, on a terminal with a line above. -/
example : ((⟨["Writing".toList], [], 0⟩ : Terminal).write (display explicitTitle false ([0, 33, 66] ++ [100])).2).Shows
    (bar explicitTitle 100) :=
  (C244_shows (title := explicitTitle) (by decide) false [0, 33, 66] 100 (by decide) ["Writing".toList]).2

/-- C244: whatever the numbers of steps of the explicit solvers run one after the other, each leaves one line, complete, and
an empty one; nothing else is seen. -/
theorem C244_runs (first : Bool) (ns : List Nat) :
    (⟨[], [], 0⟩ : Terminal).write (explicitOutputs first ns) =
      ⟨ns.flatMap fun _ => [bar explicitTitle 100, []], [], 0⟩ := by
  suffices h : ∀ (ns : List Nat) (first : Bool) (above : List (List Char)),
      (⟨above, [], 0⟩ : Terminal).write (explicitOutputs first ns) =
        ⟨above ++ ns.flatMap fun _ => [bar explicitTitle 100, []], [], 0⟩ by
    simpa using h ns first []
  intro ns
  induction ns with
  | nil => intro first above; simp [explicitOutputs, Terminal.write]
  | cons n ns ih =>
      intro first above
      have := output_shows n first ⟨above, [], 0⟩ rfl rfl
      have e : explicitOutputs first (n :: ns) =
          (explicitOutput first n).2 ++ explicitOutputs (explicitOutput first n).1 ns := rfl
      rw [e, write_append, this.2, ih]
      simp

/-- Two solvers, one without steps. -/
example : ((⟨[], [], 0⟩ : Terminal).write (explicitOutputs true [3, 0])).above =
    ["Explicit time integration [===================100% Complete] ", "",
     "Explicit time integration [===================100% Complete] ", ""].map String.toList := by
  rw [C244_runs]; decide +kernel

/-- C244: the bar has the same length whatever the percentage; before the number stand the marks of the part that is done,
rounded down, and after it the others. -/
theorem C244_bar (title : List Char) {p : Nat} (hp : p ≤ 100) :
    (bar title p).length = title.length + 36 ∧
    ∃ done rest : Nat, done + rest = 22 - (Nat.toDigits 10 p).length ∧
      100 * done ≤ p * (done + rest) ∧ p * (done + rest) < 100 * (done + 1) ∧
      bar title p = title ++ " [".toList ++ List.replicate done '=' ++ Nat.toDigits 10 p ++ "% Complete".toList ++
        List.replicate rest '=' ++ "] ".toList := by
  refine ⟨?_, ?_⟩
  · rw [bar_length title hp]; simp only [backspaces, numMarks]; omega
  · have h := (decimal_short p hp).1
    set w := numMarks + 2 - (decimal p).length with hw
    have hm : p * w / 100 ≤ w := Nat.div_le_of_le_mul (Nat.mul_le_mul_right _ hp)
    have hsum : p * w / 100 + (w - p * w / 100) = w := by omega
    refine ⟨p * w / 100, w - p * w / 100, ?_, ?_, ?_, ?_⟩
    · rw [hsum, hw]; rfl
    · rw [hsum]; exact Nat.mul_div_le _ _
    · rw [hsum]; exact Nat.lt_mul_div_succ _ (by norm_num)
    · rfl

example : bar explicitTitle 50 = "Explicit time integration [==========50% Complete==========] ".toList := by
  decide +kernel

/-- C244: what an analysis of `n` steps displays: percentages that do not decrease, from 0 (if there are steps) to 100, the
whole percents of the steps done; 100 is displayed at the end only, and there are at most 200 of them. -/
theorem C244_calls (n : Nat) :
    ∃ ks : List Nat, calls n = ks.map (fun k => k * 100 / n) ++ [100] ∧
      ks.Pairwise (· < ·) ∧ (∀ k ∈ ks, k < n) ∧ (0 < n → ks.head? = some 0) ∧
      (calls n).Pairwise (· ≤ ·) ∧ (∀ k ∈ ks, k * 100 / n < 100) ∧ (calls n).length ≤ 200 := by
  have hs : ((List.range n).filter fun k => k % displayTrigger n = 0).Pairwise (· < ·) :=
    List.Pairwise.filter _ List.pairwise_lt_range
  refine ⟨_, rfl, hs, ?_, ?_, ?_, ?_, ?_⟩
  · intro k hk; exact List.mem_range.1 (List.mem_of_mem_filter hk)
  · intro hn
    obtain ⟨m, rfl⟩ : ∃ m, n = m + 1 := ⟨n - 1, by omega⟩
    rw [List.range_succ_eq_map, List.filter_cons_of_pos (by simp)]
    rfl
  · rw [calls, List.pairwise_append]
    refine ⟨?_, by simp, ?_⟩
    · rw [List.pairwise_map]
      exact hs.imp fun h => Nat.div_le_div_right (by omega)
    · intro a ha b hb
      have := calls_le a ha
      simp at hb; omega
  · intro k hk; exact calls_le _ (List.mem_map_of_mem hk)
  · have := trigger_count n
    simp only [calls, List.length_append, List.length_map, List.length_singleton]
    omega

example : calls 3 = [0, 33, 66, 100] ∧ calls 0 = [100] := by decide +kernel

end Verif.Progress
