import Verif.Storage.LoaderModel

/-!
# Field data read from a file: notions used in the statements
-/

namespace Verif.Storage

/-- The file's times are increasing. -/
def Increasing (file : List FileStep) : Prop := file.Pairwise fun a b => a.time < b.time

/-- The time lies between two consecutive times of the file. -/
def Covered (file : List FileStep) (t : ℝ) : Prop :=
  ∃ (k : Nat) (a b : FileStep), file[k]? = some a ∧ file[k + 1]? = some b ∧
    a.time ≤ t ∧ t ≤ b.time

/-- The values lie on the straight line between the values of any two consecutive steps of the file
around the time. -/
def OnLine (file : List FileStep) (t : ℝ) (v : Nat → ℝ) : Prop :=
  ∀ (k : Nat) (a b : FileStep), file[k]? = some a → file[k + 1]? = some b →
    a.time ≤ t → t ≤ b.time →
      ∀ i, (b.time - a.time) * v i = (b.time - t) * a.data i + (t - a.time) * b.data i

/-- The file's range is everything between its first and its last time. -/
theorem covered_iff_of_bounds {file : List FileStep} {a b : FileStep} (t : ℝ)
    (hi : Increasing (a :: file)) (hb : (a :: file).getLast? = some b) (hne : file ≠ []) :
    Covered (a :: file) t ↔ a.time ≤ t ∧ t ≤ b.time := by
  induction file generalizing a with
  | nil => exact absurd rfl hne
  | cons c rest ih =>
    have hac : a.time < c.time := (List.pairwise_cons.1 hi).1 c (by simp)
    have hi' : Increasing (c :: rest) := (List.pairwise_cons.1 hi).2
    have hlast : (c :: rest).getLast? = some b := by simpa [List.getLast?_cons_cons] using hb
    constructor
    · rintro ⟨k, p, q, hp, hq, h1, h2⟩
      rcases k with _ | k
      · simp at hp hq
        subst hp; subst hq
        refine ⟨h1, le_trans h2 ?_⟩
        have hmem : b ∈ c :: rest := List.mem_of_getLast? hlast
        rcases List.mem_cons.1 hmem with h | h
        · rw [h]
        · exact ((List.pairwise_cons.1 hi').1 b h).le
      · by_cases hr : rest = []
        · subst hr; simp at hq
        · have := (ih hi' hlast hr).1 ⟨k, p, q, by simpa using hp, by simpa using hq, h1, h2⟩
          exact ⟨hac.le.trans this.1, this.2⟩
    · rintro ⟨h1, h2⟩
      by_cases hc : t ≤ c.time
      · exact ⟨0, a, c, by simp, by simp, h1, hc⟩
      · by_cases hr : rest = []
        · subst hr
          simp at hlast
          subst hlast
          exact absurd h2 hc
        · obtain ⟨k, p, q, hp, hq, h⟩ := (ih hi' hlast hr).2 ⟨(not_le.1 hc).le, h2⟩
          exact ⟨k + 1, p, q, by simpa using hp, by simpa using hq, h⟩

end Verif.Storage
