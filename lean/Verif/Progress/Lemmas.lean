import Verif.Progress.Model
import Verif.Progress.Spec
import Mathlib.Data.List.Sort
import Mathlib.Data.Finset.Card
import Mathlib.Data.Finset.Range
import Mathlib.Tactic.Ring
import Mathlib.Tactic.Linarith

/-!
# The display of progress (lemmas)
-/

namespace Verif.Progress

/-- No control characters. -/
def Plain (s : List Char) : Prop := ∀ c ∈ s, c ≠ '\x08' ∧ c ≠ '\n'

theorem write_append (t : Terminal) (a b : List Char) : t.write (a ++ b) = (t.write a).write b := by
  simp [Terminal.write, List.foldl_append]

theorem write_plain {s : List Char} (hs : Plain s) (t : Terminal) (ht : t.col ≤ t.line.length) :
    t.write s = ⟨t.above, t.line.take t.col ++ s ++ t.line.drop (t.col + s.length), t.col + s.length⟩ := by
  induction s generalizing t with
  | nil => simp [Terminal.write]
  | cons c cs ih =>
      have hc := hs c (by simp)
      have h1 : t.write (c :: cs) = (t.put c).write cs := rfl
      have h2 : t.put c = { t with line := t.line.take t.col ++ c :: t.line.drop (t.col + 1), col := t.col + 1 } := by
        rw [Terminal.put, if_neg hc.1, if_neg hc.2]
      rw [h1, h2, ih (fun d hd => hs d (List.mem_cons_of_mem _ hd))]
      · have hl : (t.line.take t.col).length = t.col := by simp [ht]
        have e1 : (t.line.take t.col ++ c :: t.line.drop (t.col + 1)).take (t.col + 1) = t.line.take t.col ++ [c] := by
          rw [List.take_append, hl, List.take_of_length_le (by omega)]
          simp
        have e2 : (t.line.take t.col ++ c :: t.line.drop (t.col + 1)).drop (t.col + 1 + cs.length) =
            t.line.drop (t.col + (c :: cs).length) := by
          rw [List.drop_append, hl, List.drop_of_length_le (by omega)]
          have : t.col + 1 + cs.length - t.col = cs.length + 1 := by omega
          rw [this, List.drop_succ_cons, List.drop_drop, List.nil_append]
          congr 1
          simp only [List.length_cons]; omega
        simp only [Terminal.mk.injEq, true_and]
        refine ⟨?_, by simp only [List.length_cons]; omega⟩
        rw [e1, e2]; simp
      · simp only [List.length_append, List.length_take, List.length_cons, List.length_drop]
        omega

theorem write_back (t : Terminal) (n : Nat) :
    t.write (List.replicate n '\x08') = { t with col := t.col - n } := by
  induction n generalizing t with
  | zero => rfl
  | succ n ih =>
      have h1 : t.write (List.replicate (n + 1) '\x08') = (t.put '\x08').write (List.replicate n '\x08') := rfl
      have h2 : t.put '\x08' = { t with col := t.col - 1 } := rfl
      rw [h1, h2, ih]
      simp only [Terminal.mk.injEq, true_and]
      omega

theorem decimal_short : ∀ p ≤ 100, (decimal p).length ≤ 3 ∧ ∀ c ∈ decimal p, c ≠ '\x08' ∧ c ≠ '\n' := by
  decide +kernel

theorem bar_length (title : List Char) {p : Nat} (hp : p ≤ 100) : (bar title p).length = backspaces title := by
  have h := (decimal_short p hp).1
  have hm : p * (numMarks + 2 - (decimal p).length) / 100 ≤ numMarks + 2 - (decimal p).length := by
    refine Nat.div_le_of_le_mul ?_
    exact Nat.mul_le_mul_right _ hp
  have h10 : "% Complete".toList.length = 10 := by decide
  simp only [bar, backspaces, List.length_append, List.length_replicate, List.length_cons, List.length_nil, h10]
  simp only [numMarks] at *
  omega

theorem bar_plain {title : List Char} (ht : Plain title) {p : Nat} (hp : p ≤ 100) : Plain (bar title p) := by
  have h := (decimal_short p hp).2
  have h10 : ∀ c ∈ "% Complete".toList, c ≠ '\x08' ∧ c ≠ '\n' := by decide
  intro c hc
  simp only [bar, List.mem_append, List.mem_cons, List.not_mem_nil, or_false, List.mem_replicate] at hc
  rcases hc with (((((hc | hc) | hc) | hc) | hc) | hc) | hc
  · exact ht c hc
  · rcases hc with rfl | rfl <;> decide
  · rw [hc.2]; decide
  · exact h c hc
  · exact h10 c hc
  · rw [hc.2]; decide
  · rcases hc with rfl | rfl <;> decide

/-- A call leaves the bar alone on the line. -/
theorem call_shows {title : List Char} (ht : Plain title) {p : Nat} (hp : p ≤ 100) {first : Bool} {t : Terminal}
    (h0 : t.col = t.line.length) (h1 : if first then t.line = [] else t.line.length ≤ backspaces title) :
    t.write (displayProgress first title p) = ⟨t.above, bar title p, (bar title p).length⟩ := by
  cases first with
  | true =>
      have h1 : t.line = [] := h1
      rw [displayProgress, if_pos rfl, write_plain (bar_plain ht hp) t (by omega)]
      rw [h0, h1]; simp
  | false =>
      have h1 : t.line.length ≤ backspaces title := by simpa using h1
      rw [displayProgress, if_neg (by simp), write_append, write_back, write_plain (bar_plain ht hp) _ (by simp only; omega)]
      have hc : t.col - backspaces title = 0 := by omega
      simp only [hc, List.take_zero, List.nil_append, Nat.zero_add, bar_length title hp]
      rw [List.drop_of_length_le h1, List.append_nil]

theorem display_shows {title : List Char} (ht : Plain title) (ps : List Nat) (hps : ∀ q ∈ ps, q ≤ 100) {p : Nat}
    (hp : p ≤ 100) {first : Bool} {t : Terminal}
    (h0 : t.col = t.line.length) (h1 : if first then t.line = [] else t.line.length ≤ backspaces title) :
    (display title first (ps ++ [p])).1 = false ∧
    t.write (display title first (ps ++ [p])).2 = ⟨t.above, bar title p, (bar title p).length⟩ := by
  induction ps generalizing first t with
  | nil => exact ⟨rfl, by simpa [display] using call_shows ht hp h0 h1⟩
  | cons q qs ih =>
      have hq := hps q (by simp)
      have hw := call_shows ht hq h0 h1
      have := ih (fun r hr => hps r (List.mem_cons_of_mem _ hr)) (first := false)
        (t := ⟨t.above, bar title q, (bar title q).length⟩) rfl
        (by simpa using (bar_length title hq).le)
      refine ⟨this.1, ?_⟩
      have e : (display title first (q :: qs ++ [p])).2 =
          displayProgress first title q ++ (display title false (qs ++ [p])).2 := rfl
      rw [e, write_append, hw, this.2]

theorem title_plain : Plain explicitTitle := by unfold Plain; decide

theorem calls_le {n : Nat} : ∀ q ∈ ((List.range n).filter fun k => k % displayTrigger n = 0).map (fun k => k * 100 / n),
    q < 100 := by
  intro q hq
  obtain ⟨k, hk, rfl⟩ := List.mem_map.1 hq
  have := List.mem_range.1 (List.mem_of_mem_filter hk)
  rw [Nat.div_lt_iff_lt_mul (by omega)]
  omega

theorem output_shows (n : Nat) (first : Bool) (t : Terminal) (hl : t.line = []) (hc : t.col = 0) :
    (explicitOutput first n).1 = false ∧
    t.write (explicitOutput first n).2 = ⟨t.above ++ [bar explicitTitle 100, []], [], 0⟩ := by
  have := display_shows title_plain _ (fun q hq => (calls_le (n := n) q hq).le) (le_refl 100) (first := first) (t := t)
    (by rw [hl, hc]; rfl) (by cases first <;> simp [hl])
  refine ⟨this.1, ?_⟩
  have e : (explicitOutput first n).2 = (display explicitTitle first (calls n)).2 ++ ['\n', '\n'] := rfl
  rw [e, write_append, calls, this.2]
  simp [Terminal.write, Terminal.put]

theorem trigger_pos (n : Nat) : 0 < displayTrigger n := by
  unfold displayTrigger; split_ifs <;> omega

theorem trigger_count (n : Nat) :
    ((List.range n).filter fun k => k % displayTrigger n = 0).length ≤ 199 := by
  set t := displayTrigger n with htd
  have ht : 0 < t := trigger_pos n
  have hn : n ≤ 199 * t := by
    rw [htd]; unfold displayTrigger; split_ifs with h <;> omega
  have hnd : ((List.range n).filter fun k => k % t = 0).Nodup := List.Nodup.filter _ List.nodup_range
  rw [← List.toFinset_card_of_nodup hnd]
  calc _ ≤ (Finset.range 199).card := by
        refine Finset.card_le_card_of_injOn (fun k => k / t) ?_ ?_
        · intro k hk
          have hk := List.mem_toFinset.1 hk
          have := List.mem_range.1 (List.mem_of_mem_filter hk)
          simp only [Finset.coe_range, Set.mem_Iio]
          rw [Nat.div_lt_iff_lt_mul ht]
          omega
        · intro a ha b hb hab
          have ha := List.of_mem_filter (List.mem_toFinset.1 ha)
          have hb := List.of_mem_filter (List.mem_toFinset.1 hb)
          have ha : a % t = 0 := by simpa using ha
          have hb : b % t = 0 := by simpa using hb
          have hab : a / t = b / t := hab
          rw [← Nat.div_add_mod a t, ← Nat.div_add_mod b t, ha, hb, hab]
    _ = 199 := by simp

end Verif.Progress
