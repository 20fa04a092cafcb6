import Verif.Exodus.Model

/-! # Names of the output files -/

namespace Verif.Exodus

open Verif

theorem padded_value (len n : Nat) : Nat.ofDigitChars 10 (padded len n) 0 = n := by
  unfold padded List.leftpad
  rw [Nat.ofDigitChars_append, Nat.ofDigitChars_replicate_zero, Nat.mul_zero,
    Nat.ofDigitChars_ten_toDigits]

theorem padded_length {len n : Nat} (h : (Nat.toDigits 10 n).length ≤ len) :
    (padded len n).length = len := by
  unfold padded
  rw [List.length_leftpad]
  omega

theorem cleanName_clean (base : List Char) : ∀ c ∈ cleanName base, c ≠ '.' ∧ c ≠ ' ' := by
  intro c hc
  unfold cleanName at hc
  rw [List.mem_map] at hc
  obtain ⟨d, _, rfl⟩ := hc
  split
  · simp
  · next h =>
    simp at h
    exact ⟨h.2, h.1⟩

/-- C189. Two processors of a run never write to the same file, and the names of their files have the
same length. -/
theorem processors_have_own_files {base : List Char} {numProc p q : Nat} (hp : p < numProc)
    (hq : q < numProc) :
    (fileName false base numProc p).length = (fileName false base numProc q).length ∧
    (fileName false base numProc p = fileName false base numProc q → p = q) := by
  unfold fileName
  by_cases hn : numProc > 1
  · simp only [Bool.false_eq_true, if_false, if_pos hn]
    have hlen : ∀ k, k < numProc → (Nat.toDigits 10 k).length ≤ (Nat.toDigits 10 numProc).length := by
      intro k hk
      rw [Nat.length_toDigits_le_iff (by omega) Nat.length_toDigits_pos]
      exact lt_of_lt_of_le hk
        (Nat.le_of_lt ((Nat.length_toDigits_le_iff (by omega) Nat.length_toDigits_pos).mp le_rfl))
    constructor
    · simp only [List.length_append, padded_length (hlen p hp), padded_length (hlen q hq)]
    · intro h
      have := List.append_cancel_left h
      rw [← padded_value (Nat.toDigits 10 numProc).length p, this, padded_value]
  · simp only [Bool.false_eq_true, if_false, if_neg hn]
    exact ⟨trivial, fun _ => by omega⟩

example : fileName false "a b.c".toList 128 7 = "a_b_c.e.128.007".toList := by decide

/-- C189. A file with global variables only and a file with fields never have the same name, and
outside of the endings no name contains a period or a space. -/
theorem kinds_have_own_files (base base' : List Char) (numProc p : Nat) :
    fileName true base' numProc p ≠ fileName false base numProc p ∧
    ∃ tail, (∀ c ∈ cleanName base, c ≠ '.' ∧ c ≠ ' ') ∧
      fileName false base numProc p = cleanName base ++ ['.', 'e'] ++ tail := by
  have hd : ∀ (l rest : List Char), (∀ c ∈ l, c ≠ '.' ∧ c ≠ ' ') →
      (l ++ '.' :: rest).dropWhile (· != '.') = '.' :: rest := by
    intro l rest hl
    rw [List.dropWhile_append_of_pos]
    · simp
    · intro c hc
      simpa using (hl c hc).1
  have hf : ∃ tail, fileName false base numProc p = cleanName base ++ ['.', 'e'] ++ tail := by
    unfold fileName
    rw [if_neg (by simp)]
    split
    · exact ⟨['.'] ++ padded (Nat.toDigits 10 numProc).length numProc ++ ['.'] ++
        padded (Nat.toDigits 10 numProc).length p, by simp⟩
    · exact ⟨[], by simp⟩
  obtain ⟨tail, htail⟩ := hf
  refine ⟨?_, tail, cleanName_clean base, htail⟩
  intro h
  rw [htail] at h
  have h' := congrArg (List.dropWhile (· != '.')) h
  unfold fileName at h'
  rw [if_pos rfl, hd _ _ (cleanName_clean base')] at h'
  rw [show cleanName base ++ ['.', 'e'] ++ tail = cleanName base ++ '.' :: ('e' :: tail) by simp,
    hd _ _ (cleanName_clean base)] at h'
  simp at h'

example : fileName true "out".toList 4 0 = "out.h".toList := by decide

/-- C189. Output sections with different names may share a file: the names `a.b` and `a_b` do. -/
theorem different_sections_share_a_file :
    "a.b".toList ≠ "a_b".toList ∧ ∀ numProc p, fileName false "a.b".toList numProc p =
      fileName false "a_b".toList numProc p := by
  refine ⟨by decide, ?_⟩
  intro numProc p
  unfold fileName
  rw [show cleanName "a.b".toList = cleanName "a_b".toList by decide]

/-- C189, partial. Sections whose names contain no period and no space have different files, for
files of the same processor. What is missing are the sections of the theorem above. -/
theorem sections_have_own_files_partial {base base' : List Char} {numProc p : Nat} (g : Bool)
    (h1 : ∀ c ∈ base, c ≠ '.' ∧ c ≠ ' ') (h2 : ∀ c ∈ base', c ≠ '.' ∧ c ≠ ' ')
    (h : fileName g base numProc p = fileName g base' numProc p) : base = base' := by
  have hc : ∀ l : List Char, (∀ c ∈ l, c ≠ '.' ∧ c ≠ ' ') → cleanName l = l := by
    intro l hl
    unfold cleanName
    conv_rhs => rw [← List.map_id l]
    apply List.map_congr_left
    intro c hc
    simp [(hl c hc).1, (hl c hc).2]
  unfold fileName at h
  rw [hc _ h1, hc _ h2] at h
  split at h
  · exact List.append_cancel_right h
  · split at h
    · simp only [List.append_assoc] at h
      exact List.append_cancel_right h
    · exact List.append_cancel_right h

example : ∀ c ∈ "dump_1".toList, c ≠ '.' ∧ c ≠ ' ' := by decide

end Verif.Exodus
