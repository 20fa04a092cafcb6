import Verif.Convert.Spec

/-! C200: the neighbourhood file. -/

namespace Verif.Convert

open Verif Verif.Neigh

theorem space_not_digit (n : Nat) : ∀ c ∈ Nat.toDigits 10 n, c ≠ ' ' := by
  intro c hc
  have := Nat.isDigit_of_mem_toDigits (by decide) (by decide) hc
  rintro rfl
  revert this
  decide

theorem digits_inj {n m : Nat} (h : Nat.toDigits 10 n = Nat.toDigits 10 m) : n = m := by
  rw [← Nat.ofDigitChars_toDigits (b := 10) (n := n) (by decide) (by decide), h,
    Nat.ofDigitChars_toDigits (by decide) (by decide)]

theorem split_space {a b r s : List Char} (ha : ∀ c ∈ a, c ≠ ' ') (hb : ∀ c ∈ b, c ≠ ' ')
    (h : a ++ [' '] ++ r = b ++ [' '] ++ s) : a = b ∧ r = s := by
  induction a generalizing b with
  | nil =>
    cases b with
    | nil => simpa using h
    | cons c b =>
      simp at h
      exact absurd h.1.symm (hb c List.mem_cons_self)
  | cons x a ih =>
    cases b with
    | nil =>
      simp at h
      exact absurd h.1 (ha x List.mem_cons_self)
    | cons c b =>
      simp only [List.cons_append, List.cons.injEq] at h
      obtain ⟨e1, e2⟩ := ih (fun y hy => ha y (List.mem_cons_of_mem _ hy)) (fun y hy => hb y (List.mem_cons_of_mem _ hy))
        h.2
      exact ⟨by rw [h.1, e1], e2⟩

theorem putNumber_inj {n m : Nat} {r s : List Char} (h : putNumber n ++ r = putNumber m ++ s) : n = m ∧ r = s := by
  obtain ⟨h1, h2⟩ := split_space (space_not_digit n) (space_not_digit m) h
  exact ⟨digits_inj h1, h2⟩

theorem putNumbers_inj : ∀ {a b : List Nat} {r s : List Char}, a.length = b.length →
    a.flatMap putNumber ++ r = b.flatMap putNumber ++ s → a = b ∧ r = s
  | [], [], r, s, _, h => ⟨rfl, by simpa using h⟩
  | x :: a, y :: b, r, s, hl, h => by
    rw [List.flatMap_cons, List.flatMap_cons, List.append_assoc, List.append_assoc] at h
    obtain ⟨h1, h2⟩ := putNumber_inj h
    obtain ⟨h3, h4⟩ := putNumbers_inj (by simpa using hl) h2
    exact ⟨by rw [h1, h3], h4⟩

/-- **C200** The neighbourhood file determines the neighbourhoods: two discretizations with the same file have the
same points, the same lists of neighbours and the same entries into them. -/
theorem C200_file {d d' : NeighborhoodData} (h : d.ptr.length = d.ownedIDs.length)
    (h' : d'.ptr.length = d'.ownedIDs.length) (hf : neighborhoodFile d = neighborhoodFile d') : d = d' := by
  unfold neighborhoodFile at hf
  simp only [List.append_assoc] at hf
  obtain ⟨h1, hf⟩ := putNumber_inj hf
  obtain ⟨h2, hf⟩ := putNumbers_inj h1 hf
  obtain ⟨h3, hf⟩ := putNumber_inj hf
  obtain ⟨h4, hf⟩ := putNumbers_inj h3 hf
  have hp : d.ptr.length = d'.ptr.length := by rw [h, h', h1]
  obtain ⟨h5, -⟩ := putNumbers_inj (r := []) (s := []) hp (by rw [List.append_nil, List.append_nil]; exact hf)
  cases d
  cases d'
  simp only at h2 h4 h5
  rw [h2, h4, h5]

/-- Two points that are neighbours of each other. -/
example : String.ofList (neighborhoodFile ⟨[0, 1], [1, 1, 1, 0], [0, 2]⟩) = "2 0 1 4 1 1 1 0 0 2 " := by decide

example {d : NeighborhoodData} (h : d.ptr.length = d.ownedIDs.length)
    (hf : String.ofList (neighborhoodFile d) = "2 0 1 4 1 1 1 0 0 2 ") : d = ⟨[0, 1], [1, 1, 1, 0], [0, 2]⟩ :=
  C200_file h rfl (by
    have e : String.ofList (neighborhoodFile ⟨[0, 1], [1, 1, 1, 0], [0, 2]⟩) = "2 0 1 4 1 1 1 0 0 2 " := by decide
    rw [← e] at hf
    exact String.ofList_injective hf)

end Verif.Convert
