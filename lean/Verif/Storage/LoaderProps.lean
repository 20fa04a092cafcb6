import Verif.Storage.LoaderLemmas
import Mathlib.Tactic.NormNum

/-!
# C58: loaded data are interpolated in the file, other times are rejected
-/

namespace Verif.Storage

open Verif

/-- A file with two steps, for the examples. -/
def demoFile : List FileStep :=
  [{ time := 0, data := fun _ => 10 }, { time := 2, data := fun _ => 30 }]

theorem demoFile_increasing : Increasing demoFile := by
  simp [Increasing, demoFile]

/-- After any requests, a time between two times of the file gives the values on the straight line
between them, and a time outside of the file is rejected if the request before it was not for the
same time.  Missing for the full claim: a rejected time is accepted when requested again at once
(`C58_repeat_accepted`), and the time -1, which marks a loader that has not been used
(`C58_minus_one`). -/
theorem C58_partial (file : List FileStep) (hi : Increasing file) (ts : List ℝ)
    (hts : ∀ t ∈ ts, t ≠ -1) (t : ℝ) (ht : t ≠ -1) :
    (Covered file t →
      ∃ v, ((Loader.new.after file ts).load file t).2 = .ok v ∧ OnLine file t v) ∧
    (¬ Covered file t → ts.getLast? ≠ some t →
      ((Loader.new.after file ts).load file t).2 = .fail .runtimeError) := by
  have hg := good_after hi (good_new file) ts hts
  have htime : (Loader.new.after file ts).time = t → ts.getLast? = some t := by
    intro h
    have := hg.time
    rw [h] at this
    by_cases hn : ts = []
    · subst hn
      simp at this
      exact absurd this ht
    · rw [if_neg hn] at this
      rw [List.getLast?_eq_getLast_of_ne_nil hn] at this ⊢
      simpa using this.symm
  rw [Loader.load]
  split
  · have hh : Held file { Loader.new.after file ts with time := t } := hg.held
    rcases update_cases hi hh ht with ⟨hc, v, s', e, hl, -⟩ | ⟨hc, e⟩
    · rw [e]
      exact ⟨fun _ => ⟨v, rfl, hl⟩, fun h => absurd hc h⟩
    · rw [e]
      exact ⟨fun h => absurd h hc, fun _ _ => rfl⟩
  · next he =>
    have he' : t = (Loader.new.after file ts).time := not_not.1 he
    refine ⟨fun hc => ?_, fun _ hl => absurd (htime he'.symm) hl⟩
    have := hg.scratch (by rw [← he']; exact ht) (by rw [← he']; exact hc)
    rw [← he'] at this
    exact this

/-- The hypotheses hold, and the claim says what it should, for a request of time 1 after one of
time 5, which is rejected. -/
example : ∃ v, ((Loader.new.after demoFile [5]).load demoFile 1).2 = .ok v ∧ v 7 = 20 := by
  have hc : Covered demoFile 1 :=
    ⟨0, _, _, rfl, rfl, by norm_num, by norm_num⟩
  obtain ⟨v, hv, hl⟩ := (C58_partial demoFile demoFile_increasing [5] (by simp; norm_num) 1
    (by norm_num)).1 hc
  refine ⟨v, hv, ?_⟩
  have := hl 0 _ _ rfl rfl (by norm_num) (by norm_num) 7
  norm_num at this
  linarith

example : ((Loader.new.after demoFile [1]).load demoFile 5).2 = .fail .runtimeError := by
  refine (C58_partial demoFile demoFile_increasing [1] (by simp; norm_num) 5 (by norm_num)).2 ?_
    (by norm_num)
  rw [demoFile, covered_iff_of_bounds 5 demoFile_increasing rfl (by simp)]
  norm_num

/-- The claim is false of the code: a rejected time is accepted when it is requested again, for any
file, after any requests, and whatever the file has become; the values delivered are those of the
request before. -/
theorem C58_repeat_accepted (file file' : List FileStep) (hi : Increasing file) (ts : List ℝ)
    (hts : ∀ t ∈ ts, t ≠ -1) (t : ℝ) (ht : t ≠ -1) (hc : ¬ Covered file t)
    (hl : ts.getLast? ≠ some t) :
    ((Loader.new.after file ts).load file t).2 = .fail .runtimeError ∧
    ∃ v, (Loader.new.after file ts).scratch = .ok v ∧
      ((Loader.new.after file (ts ++ [t])).load file' t).2 = .ok v := by
  refine ⟨(C58_partial file hi ts hts t ht).2 hc hl, ?_⟩
  have hg := good_after hi (good_new file) ts hts
  obtain ⟨v, hv⟩ := hg.some
  refine ⟨v, hv, ?_⟩
  have hne : t ≠ (Loader.new.after file ts).time := by
    intro h
    have := hg.time
    rw [← h] at this
    by_cases hn : ts = []
    · subst hn; simp at this; exact ht this
    · rw [if_neg hn] at this
      apply hl
      rw [List.getLast?_eq_getLast_of_ne_nil hn] at this ⊢
      simpa using this.symm
  have hh : Held file { Loader.new.after file ts with time := t } := hg.held
  have hstep : ((Loader.new.after file ts).load file t).1 =
      { Loader.new.after file ts with time := t } := by
    rw [Loader.load, if_pos hne]
    rcases update_cases hi hh ht with ⟨hc', -⟩ | ⟨-, e⟩
    · exact absurd hc' hc
    · rw [e]
  have happ : Loader.new.after file (ts ++ [t]) = { Loader.new.after file ts with time := t } := by
    rw [← hstep, Loader.after, Loader.after, List.foldl_append]
    rfl
  rw [happ, Loader.load, if_neg (by simp)]
  exact hv

/-- The first request, at a time outside of the file, is rejected; the second delivers zeros. -/
example : (Loader.new.load demoFile 5).2 = .fail .runtimeError ∧
    ((Loader.new.after demoFile [5]).load demoFile 5).2 = .ok fun _ => 0 := by
  have hc : ¬ Covered demoFile 5 := by
    rw [demoFile, covered_iff_of_bounds 5 demoFile_increasing rfl (by simp)]
    norm_num
  obtain ⟨h1, v, hv, h2⟩ := C58_repeat_accepted demoFile demoFile demoFile_increasing [] (by simp) 5
    (by norm_num) hc (by simp)
  refine ⟨h1, ?_⟩
  rw [show ([5] : List ℝ) = [] ++ [5] from rfl, h2, ← hv]
  rfl

/-- The claim is false of the code: a new loader asked for the time -1 does not read the file and
delivers zeros, whatever the file holds. -/
theorem C58_minus_one (file : List FileStep) :
    (Loader.new.load file (-1)).2 = .ok fun _ => 0 := by
  rw [Loader.load, if_neg (by simp [Loader.new])]
  rfl

/-- A file in which all values are 1, with the time -1 in its range: the zeros are not on the
line. -/
example : ∃ file, Increasing file ∧ Covered file (-1) ∧
    ∀ v, (Loader.new.load file (-1)).2 = .ok v → ¬ OnLine file (-1) v := by
  refine ⟨[⟨-2, fun _ => 1⟩, ⟨0, fun _ => 1⟩], by simp [Increasing],
    ⟨0, _, _, rfl, rfl, by norm_num, by norm_num⟩, ?_⟩
  intro v hv hl
  rw [C58_minus_one] at hv
  cases hv
  have := hl 0 _ _ rfl rfl (by norm_num) (by norm_num) 0
  norm_num at this

end Verif.Storage
