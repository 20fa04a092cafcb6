import Verif.Deck.Props

/-! C249: lists and files with the node number zero are refused. -/

namespace Verif.Deck

open Verif

theorem readLine_zero {s t : Text} {ns : List Nat} (h : Lists s ns) (ht : White t) (h0 : 0 ∈ ns) : readLine (s ++ t) = .fail .runtimeError := by
  obtain ⟨t', ht', e⟩ := trim_lists h ht
  rw [readLine, e]
  have hn := lineNumbers_lists h.drop t' (Mesh.drop s ++ t').length ht' (by simp)
  rw [hn, if_neg, if_pos]
  · exact List.any_eq_true.mpr ⟨0, List.mem_map.mpr ⟨0, h0, rfl⟩, by simp⟩
  · intro h'
    obtain ⟨c, u, hc, hc'⟩ := h.drop.begins
    rw [hc] at h'
    rcases (Mesh.isComment_iff _).mp h' with h' | ⟨d, v, h1, h2⟩
    · simp at h'
    · injection h1 with h1 _
      rw [← h1] at h2
      exact not_comment hc' h2

theorem readLines_zero {ls : List Text} {x : Text} (hx : x ∈ ls) (h : readLine x = .fail .runtimeError) (l : List Nat) :
    readLines ls ≠ .ok l := by
  induction ls generalizing l with
  | nil => simp at hx
  | cons y ys ih =>
    intro e
    rw [readLines] at e
    obtain ⟨a, ha, e⟩ := Outcome.bind_eq_ok.1 e
    obtain ⟨b, hb, -⟩ := Outcome.bind_eq_ok.1 e
    rcases List.mem_cons.1 hx with rfl | hx
    · rw [h] at ha
      cases ha
    · exact ih hx b hb

theorem readList_zero {s : Text} {ns : List Nat} (h : Lists s ns) :
    ∀ (t : Text) (fuel : Nat) (last : Option Int) (l : List Nat), White t → 0 ∈ ns → readList fuel last (s ++ t) ≠ .ok l := by
  induction h with
  | @last w ds hw hne hd =>
    intro t fuel last l ht h0
    match fuel with
    | 0 => simp [readList]
    | fuel + 1 =>
      have hr : t = [] ∨ ∃ c u, t = c :: u ∧ c.isDigit = false := by
        cases t with
        | nil => exact Or.inl rfl
        | cons c u => exact Or.inr ⟨c, u, rfl, space_not_digit (ht c (by simp))⟩
      rw [readList_succ, scanInt_digits hw hne hd hr]
      have h1 := List.mem_singleton.1 h0
      rw [← digitsValue_eq] at h1
      simp only
      rw [if_pos (by omega)]
      simp
  | @cons w ds c s ns hw hne hd hc hs ih =>
    intro t fuel last l ht h0
    match fuel with
    | 0 => simp [readList]
    | fuel + 1 =>
      rw [List.append_assoc (w ++ ds), List.cons_append, readList_succ,
        scanInt_digits hw hne hd (Or.inr ⟨c, s ++ t, rfl, space_not_digit hc⟩)]
      simp only
      split
      · simp
      · next hge =>
        rw [if_neg (by simp)]
        intro e
        obtain ⟨b, hb, -⟩ := Outcome.bind_eq_ok.1 e
        rcases List.mem_cons.1 h0 with h1 | h1
        · rw [← digitsValue_eq] at h1
          omega
        · exact ih t _ _ b ht h1 hb

/-- **C249, lists.**  A list with the number zero is refused, as nodes are counted from one. -/
theorem C249_list_zero (R : Reader) (s t : Text) (ns : List Nat) (h : Lists s ns) (ht : White t) (h0 : 0 ∈ ns)
    (hlist : fileName (s ++ t) = []) (l : List Nat) : readNodes R (s ++ t) ≠ .ok l := by
  rw [readNodes, hlist, if_pos List.length_nil]
  exact readList_zero h t _ none l ht h0

/-- A list that satisfies the conditions. -/
example (R : Reader) (l : List Nat) : readNodes R "12 0".toList ≠ .ok l := by
  have h : Lists "12 0".toList [12, 0] :=
    .cons (w := []) (ds := "12".toList) (c := ' ') (s := "0".toList) (by simp [White]) (by simp) (by decide) (by decide)
      (.last (w := [' ']) (ds := "0".toList) (by simp [White, isSpace]) (by simp) (by decide))
  simpa using C249_list_zero R _ [] _ h (by simp [White]) (by simp) (by decide) l

/-- **C249, files.**  A file in which some line lists the number zero is refused, as nodes are counted from one. -/
theorem C249_file_zero (R : Reader) (a b : Nat) (c : Char) (t content s w : Text) (ns : List Nat)
    (hw : ∀ d ∈ c :: t, d ≠ ' ' ∧ d ≠ '\t') (hc : ¬ InNumber c) (hf : R.files (c :: t) = some content)
    (hs : s ++ w ∈ Mesh.fileLines content) (h : Lists s ns) (hwh : White w) (h0 : 0 ∈ ns) (l : List Nat) :
    readNodes R (List.replicate a ' ' ++ c :: t ++ List.replicate b ' ') ≠ .ok l := by
  rw [(C249_file_names R).2.2 a b c t hw hc, hf]
  exact readLines_zero hs (readLine_zero h hwh h0) l

/-- A file with the nodes 0 and 7. -/
example (R : Reader) (hf : R.files "nodes.txt".toList = some "# left\n0 7".toList) (l : List Nat) :
    readNodes R "nodes.txt".toList ≠ .ok l := by
  have h : Lists "0 7".toList [0, 7] :=
    .cons (w := []) (ds := "0".toList) (c := ' ') (s := "7".toList) (by simp [White]) (by simp) (by decide) (by decide)
      (.last (w := [' ']) (ds := "7".toList) (by simp [White, isSpace]) (by simp) (by decide))
  exact C249_file_zero R 0 0 'n' "odes.txt".toList _ "0 7".toList [] _ (by decide) (by simp [InNumber, isSpace]) hf (by decide) h
    (by simp [White]) (by simp) l

end Verif.Deck
