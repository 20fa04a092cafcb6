import Verif.Deck.ReadLemmas

/-!
# Lemmas on lists of nodes
-/

noncomputable section

namespace Verif.Deck

open Verif

theorem digit_not_space {c : Char} (h : c.isDigit = true) : isSpace c = false := by
  simp only [Char.isDigit, Bool.and_eq_true, decide_eq_true_eq] at h
  have h1 : 48 ≤ c.toNat := by have := h.1; exact this
  simp only [isSpace, Bool.or_eq_false_iff, decide_eq_false_iff_not]
  refine ⟨⟨⟨⟨⟨?_, ?_⟩, ?_⟩, ?_⟩, ?_⟩, ?_⟩
  · rintro rfl; revert h1; decide
  · rintro rfl; revert h1; decide
  · rintro rfl; revert h1; decide
  · rintro rfl; revert h1; decide
  · omega
  · omega

theorem dropWhile_white {w s : Text} (h : White w) : (w ++ s).dropWhile isSpace = s.dropWhile isSpace := by
  induction w with
  | nil => rfl
  | cons c w ih =>
    rw [List.cons_append, List.dropWhile_cons, if_pos (h c (by simp)), ih fun c hc => h c (by simp [hc])]

theorem digit_sign {c : Char} {s : Text} (h : c.isDigit = true) : splitSign (c :: s) = (false, c :: s) := by
  unfold splitSign
  split
  · rename_i heq; cases heq; exact absurd h (by decide)
  · rename_i heq; cases heq; exact absurd h (by decide)
  · rfl

theorem takeWhile_digits {ds rest : Text} (h : ∀ c ∈ ds, c.isDigit = true)
    (hr : rest = [] ∨ ∃ c t, rest = c :: t ∧ c.isDigit = false) :
    (ds ++ rest).takeWhile Char.isDigit = ds ∧ (ds ++ rest).dropWhile Char.isDigit = rest := by
  induction ds with
  | nil =>
    rcases hr with rfl | ⟨c, t, rfl, hc⟩
    · simp
    · simp [List.takeWhile_cons, List.dropWhile_cons, hc]
  | cons d ds ih =>
    have := ih fun c hc => h c (by simp [hc])
    have hd := h d (by simp)
    simp [List.takeWhile_cons, List.dropWhile_cons, hd, this]

theorem scanInt_digits {w ds rest : Text} (hw : White w) (hne : ds ≠ []) (hd : ∀ c ∈ ds, c.isDigit = true)
    (hr : rest = [] ∨ ∃ c t, rest = c :: t ∧ c.isDigit = false) :
    scanInt (w ++ ds ++ rest) = .number (digitsValue ds) rest := by
  cases ds with
  | nil => exact absurd rfl hne
  | cons d ds =>
    have hd0 := hd d (by simp)
    rw [scanInt, List.append_assoc, dropWhile_white hw, List.cons_append, List.dropWhile_cons, digit_not_space hd0]
    simp only [Bool.false_eq_true, if_false, digit_sign hd0]
    obtain ⟨h1, h2⟩ := takeWhile_digits hd hr
    rw [List.cons_append] at h1 h2
    rw [h1, h2]
    simp

theorem digitsValue_eq (ds : Text) :
    digitsValue ds = Nat.ofDigits 10 (ds.reverse.map fun c => c.toNat - 48) := by
  rw [digitsValue]
  induction ds using List.reverseRecOn with
  | nil => rfl
  | append_singleton ds c ih =>
    rw [List.foldl_append, ih]
    simp [Nat.ofDigits_cons]
    omega

theorem scanInt_white {w : Text} (hw : White w) : scanInt w = .nothing := by
  rw [scanInt]
  have : w.dropWhile isSpace = [] := by
    have := dropWhile_white (s := []) hw
    simpa using this
  rw [this]

theorem space_not_digit {c : Char} (h : isSpace c = true) : c.isDigit = false := by
  by_contra hd
  have := digit_not_space (by simpa using hd)
  rw [h] at this
  simp at this

theorem readList_succ (fuel : Nat) (last : Option Int) (s : Text) :
    readList (fuel + 1) last s =
      match scanInt s with
      | .nothing =>
        match last with
        | none => .ub
        | some i => .ok [(i - 1).toNat]
      | .notNumber => .fail .runtimeError
      | .number i rest =>
        if i < 1 then .fail .runtimeError
        else if rest = [] then .ok [(i - 1).toNat]
        else readList fuel (some i) rest >>= fun l => .ok ((i - 1).toNat :: l) := rfl

theorem mem_takeWhile {p : Char → Bool} {s : Text} {c : Char} (h : c ∈ s.takeWhile p) : p c = true := by
  induction s with
  | nil => simp at h
  | cons d s ih =>
    rw [List.takeWhile_cons] at h
    split at h
    · rcases List.mem_cons.mp h with rfl | h
      · assumption
      · exact ih h
    · simp at h

theorem white_of_dropWhile {s : Text} (h : s.dropWhile isSpace = []) : White s := by
  intro c hc
  have := List.takeWhile_append_dropWhile (p := isSpace) (l := s)
  rw [h, List.append_nil] at this
  rw [← this] at hc
  exact mem_takeWhile hc

theorem Lists.ne {s : Text} {ns : List Nat} (h : Lists s ns) : ns ≠ [] := by cases h <;> simp

/-- A list is read, and if white space follows, the last number is read twice. -/
theorem readList_lists {s : Text} {ns : List Nat} (h : Lists s ns) :
    ∀ (t : Text) (fuel : Nat) (last : Option Int), White t → (∀ n ∈ ns, 1 ≤ n) → s.length + t.length + 1 ≤ fuel →
      readList fuel last (s ++ t) = .ok (ns.map (· - 1) ++ if t = [] then [] else (ns.map (· - 1)).getLast?.toList) := by
  induction h with
  | @last w ds hw hne hd =>
    intro t fuel last ht hpos hfuel
    obtain ⟨fuel, rfl⟩ : ∃ f, fuel = f + 1 := ⟨fuel - 1, by omega⟩
    have hr : t = [] ∨ ∃ c u, t = c :: u ∧ c.isDigit = false := by
      cases t with
      | nil => exact Or.inl rfl
      | cons c u => exact Or.inr ⟨c, u, rfl, space_not_digit (ht c (by simp))⟩
    rw [readList_succ, scanInt_digits hw hne hd hr]
    have h1 := hpos _ (List.mem_cons_self)
    rw [← digitsValue_eq] at h1 ⊢
    have hlen : 0 < ds.length := List.length_pos_iff.mpr hne
    simp only
    rw [if_neg (by omega)]
    split
    · rename_i h
      simp [h]
    · rename_i h
      obtain ⟨fuel, rfl⟩ : ∃ f, fuel = f + 1 := ⟨fuel - 1, by
        have : 0 < t.length := List.length_pos_iff.mpr h
        simp at hfuel; omega⟩
      rw [readList_succ, scanInt_white ht]
      simp [h]
  | @cons w ds c s ns hw hne hd hc hs ih =>
    intro t fuel last ht hpos hfuel
    obtain ⟨fuel, rfl⟩ : ∃ f, fuel = f + 1 := ⟨fuel - 1, by omega⟩
    rw [List.append_assoc (w ++ ds), List.cons_append, readList_succ,
      scanInt_digits hw hne hd (Or.inr ⟨c, s ++ t, rfl, space_not_digit hc⟩)]
    have h1 := hpos _ (List.mem_cons_self)
    rw [← digitsValue_eq] at h1 ⊢
    have hlen : 0 < ds.length := List.length_pos_iff.mpr hne
    simp only
    rw [if_neg (by omega), if_neg (by simp)]
    have h2 := ih t fuel (some (digitsValue ds : Int)) ht (fun n hn => hpos n (by simp [hn])) (by
      simp at hfuel ⊢; omega)
    rw [List.cons_append] at h2
    rw [h2]
    simp only [Outcome.ok_bind, List.map_cons, List.cons_append]
    have hns := hs.ne
    congr 1
    rw [show ((digitsValue ds : Int) - 1).toNat = digitsValue ds - 1 by omega]
    congr 2
    split
    · rfl
    · cases ns with
      | nil => exact absurd rfl hns
      | cons a l => simp [List.getLast?_cons]

/-- The numbers of a line of a file. -/
theorem lineNumbers_lists {s : Text} {ns : List Nat} (h : Lists s ns) :
    ∀ (t : Text) (fuel : Nat), White t → s.length + t.length ≤ fuel →
      lineNumbers fuel (s ++ t) = ns.map fun n : Nat => (n : Int) := by
  induction h with
  | @last w ds hw hne hd =>
    intro t fuel ht hfuel
    have hlen : 0 < ds.length := List.length_pos_iff.mpr hne
    obtain ⟨fuel, rfl⟩ : ∃ f, fuel = f + 1 := ⟨fuel - 1, by simp at hfuel; omega⟩
    have hr : t = [] ∨ ∃ c u, t = c :: u ∧ c.isDigit = false := by
      cases t with
      | nil => exact Or.inl rfl
      | cons c u => exact Or.inr ⟨c, u, rfl, space_not_digit (ht c (by simp))⟩
    rw [lineNumbers, scanInt_digits hw hne hd hr]
    have hnil : lineNumbers fuel t = [] := by
      cases fuel with
      | zero => rfl
      | succ f => rw [lineNumbers, scanInt_white ht]
    simp [hnil, digitsValue_eq]
  | @cons w ds c s ns hw hne hd hc hs ih =>
    intro t fuel ht hfuel
    have hlen : 0 < ds.length := List.length_pos_iff.mpr hne
    obtain ⟨fuel, rfl⟩ : ∃ f, fuel = f + 1 := ⟨fuel - 1, by simp at hfuel; omega⟩
    rw [List.append_assoc (w ++ ds), List.cons_append, lineNumbers,
      scanInt_digits hw hne hd (Or.inr ⟨c, s ++ t, rfl, space_not_digit hc⟩)]
    have h2 := ih t fuel ht (by simp at hfuel ⊢; omega)
    rw [List.cons_append] at h2
    simp [h2, digitsValue_eq]

/-! ### What cannot be read -/

theorem splitSign_parts (s : Text) : ∃ p, s = p ++ (splitSign s).2 ∧ ∀ c ∈ p, c = '+' ∨ c = '-' := by
  unfold splitSign
  split
  · exact ⟨['-'], rfl, by simp⟩
  · exact ⟨['+'], rfl, by simp⟩
  · exact ⟨[], rfl, by simp⟩

theorem scanInt_parts {s : Text} {i : Int} {rest : Text} (h : scanInt s = .number i rest) :
    ∃ p, s = p ++ rest ∧ ∀ c ∈ p, InNumber c := by
  rw [scanInt] at h
  split at h
  · simp at h
  · rename_i c cs heq
    dsimp only at h
    split at h
    · simp at h
    · injection h with h1 h2
      obtain ⟨p, hp, hp'⟩ := splitSign_parts (c :: cs)
      refine ⟨s.takeWhile isSpace ++ p ++ (splitSign (c :: cs)).2.takeWhile Char.isDigit, ?_, ?_⟩
      · rw [List.append_assoc, List.append_assoc, ← h2, List.takeWhile_append_dropWhile, ← hp, ← heq,
          List.takeWhile_append_dropWhile]
      · intro d hd
        rcases List.mem_append.mp hd with hd | hd
        · rcases List.mem_append.mp hd with hd | hd
          · exact Or.inl (mem_takeWhile hd)
          · rcases hp' d hd with h | h
            · exact Or.inr (Or.inr (Or.inl h))
            · exact Or.inr (Or.inr (Or.inr h))
        · exact Or.inr (Or.inl (mem_takeWhile hd))

theorem scanInt_nothing {s : Text} (h : scanInt s = .nothing) : White s := by
  rw [scanInt] at h
  split at h
  · rename_i heq
    exact white_of_dropWhile heq
  · dsimp only at h
    split at h <;> simp at h

theorem readList_chars : ∀ (fuel : Nat) (last : Option Int) (s : Text) (l : List Nat),
    readList fuel last s = .ok l → ∀ c ∈ s, InNumber c := by
  intro fuel
  induction fuel with
  | zero => intro last s l h; simp [readList] at h
  | succ f ih =>
    intro last s l h c hc
    rw [readList_succ] at h
    split at h
    · rename_i heq
      exact Or.inl (scanInt_nothing heq c hc)
    · simp at h
    · rename_i i rest heq
      obtain ⟨p, rfl, hp⟩ := scanInt_parts heq
      split at h
      · simp at h
      · split at h
        · rename_i hr
          subst hr
          exact hp c (by simpa using hc)
        · obtain ⟨l', h1, -⟩ := Outcome.bind_eq_ok.mp h
          rcases List.mem_append.mp hc with hc | hc
          · exact hp c hc
          · exact ih _ _ _ h1 c hc

theorem readList_fails {s : Text} (last : Option Int) (fuel : Nat) (c : Char) (hc : c ∈ s) (h : ¬ InNumber c) (l : List Nat) :
    readList fuel last s ≠ .ok l := fun h' => h (readList_chars _ _ _ _ h' c hc)

/-! ### Lists and files -/

/-- The text is a list if it has a blank inside or begins with a digit from one on. -/
theorem fileName_digit {s : Text} {a : Nat} {c : Char} {t : Text} (hs : s = List.replicate a ' ' ++ c :: t)
    (hc : c.isDigit = true) (h0 : c ≠ '0') : fileName s = [] := by
  have hcb : c ≠ ' ' := by rintro rfl; exact absurd hc (by decide)
  have hmem : c ∈ s := by rw [hs]; simp
  obtain ⟨a', b', h1, h2⟩ := Mesh.trim_decompose hmem hcb
  have hhead : ∃ t', Mesh.trim s = c :: t' := by
    rw [Mesh.trim_of_not hmem hcb]
    have : Mesh.drop s = c :: t := by rw [hs, Mesh.drop_blanks, Mesh.drop_cons _ hcb]
    rw [this, List.reverse_cons, Mesh.drop_snoc _ hcb]
    exact ⟨(Mesh.drop t.reverse).reverse, by simp⟩
  obtain ⟨t', ht⟩ := hhead
  unfold fileName
  split
  · rfl
  · rw [if_pos]
    left
    rw [ht, strtolNonzero, List.dropWhile_cons, digit_not_space hc]
    simp only [Bool.false_eq_true, if_false, digit_sign hc]
    split
    · rename_i heq
      injection heq with h _
      exact absurd h h0
    · rw [List.takeWhile_cons, if_pos hc]
      simp [h0]

theorem fileName_white {s : Text} (h : ∃ c ∈ Mesh.trim s, c = ' ' ∨ c = '\t') : fileName s = [] := by
  rw [fileName, if_pos]
  obtain ⟨c, hc, h⟩ := h
  exact List.any_eq_true.mpr ⟨c, hc, by simpa using h⟩

/-- A text without blanks that does not begin with a digit, a sign or white space is the name of a file. -/
theorem fileName_name {a b : Nat} {c : Char} {t : Text} (hw : ∀ d ∈ c :: t, d ≠ ' ' ∧ d ≠ '\t')
    (hc : ¬ InNumber c) : fileName (List.replicate a ' ' ++ c :: t ++ List.replicate b ' ') = c :: t := by
  have ht : Mesh.Tight (c :: t) := by
    refine ⟨⟨c, t, rfl, (hw c (by simp)).1⟩, ?_⟩
    rcases List.eq_nil_or_concat (c :: t) with h | ⟨u, d, h⟩
    · simp at h
    · exact ⟨u, d, by simpa using h, (hw d (by rw [h]; simp)).1⟩
  have hs : isSpace c = false := by
    by_contra h; exact hc (Or.inl (by simpa using h))
  have hd : c.isDigit = false := by
    by_contra h; exact hc (Or.inr (Or.inl (by simpa using h)))
  have hsign : splitSign (c :: t) = (false, c :: t) := by
    unfold splitSign
    split
    · rename_i heq; injection heq with h _; exact absurd (Or.inr (Or.inr (Or.inr h))) hc
    · rename_i heq; injection heq with h _; exact absurd (Or.inr (Or.inr (Or.inl h))) hc
    · rfl
  have h0 : c ≠ '0' := by rintro rfl; exact absurd hd (by decide)
  rw [fileName, Mesh.trim_tight ht, if_neg, if_neg]
  · rintro (h | h | h | h)
    · rw [strtolNonzero, List.dropWhile_cons, hs] at h
      simp only [Bool.false_eq_true, if_false, hsign] at h
      split at h
      · rename_i heq
        injection heq with h' _
        exact h0 h'
      · rw [List.takeWhile_cons, hd] at h
        simp at h
    · injection h with h _; exact h0 h
    · injection h with h _; exact hc (Or.inr (Or.inr (Or.inl h)))
    · injection h with h _; exact hc (Or.inr (Or.inr (Or.inr h)))
  · intro h
    obtain ⟨d, hd, h⟩ := List.any_eq_true.mp h
    have := hw d hd
    simp at h
    rcases h with h | h
    · exact this.1 h
    · exact this.2 h

/-! ### Lines of a file -/

theorem drop_append (u v : Text) : Mesh.drop (u ++ v) = if Mesh.drop u = [] then Mesh.drop v else Mesh.drop u ++ v := by
  induction u with
  | nil => simp [Mesh.drop]
  | cons c u ih =>
    by_cases hc : c = ' '
    · subst hc
      have h1 : Mesh.drop (' ' :: u) = Mesh.drop u := Mesh.drop_blanks 1 u
      have h2 : Mesh.drop (' ' :: (u ++ v)) = Mesh.drop (u ++ v) := Mesh.drop_blanks 1 _
      rw [List.cons_append, h1, h2, ih]
    · rw [List.cons_append, Mesh.drop_cons _ hc, Mesh.drop_cons _ hc, if_neg (by simp), List.cons_append]

theorem drop_sub {s : Text} {c : Char} (h : c ∈ Mesh.drop s) : c ∈ s := by
  obtain ⟨a, h1, -⟩ := Mesh.drop_split s
  rw [h1]; exact List.mem_append_right _ h

theorem digit_not_blank {c : Char} (h : c.isDigit = true) : c ≠ ' ' := by rintro rfl; exact absurd h (by decide)

theorem drop_digits {w ds rest : Text} (hne : ds ≠ []) (hd : ∀ c ∈ ds, c.isDigit = true) :
    Mesh.drop (w ++ (ds ++ rest)) = Mesh.drop w ++ (ds ++ rest) := by
  rw [drop_append]
  split
  · rename_i h
    rw [h]
    cases ds with
    | nil => exact absurd rfl hne
    | cons d ds => rw [List.cons_append, Mesh.drop_cons _ (digit_not_blank (hd d (by simp))), List.nil_append]
  · rfl

theorem Lists.drop {s : Text} {ns : List Nat} (h : Lists s ns) : Lists (Mesh.drop s) ns := by
  cases h with
  | @last w ds hw hne hd =>
    have := drop_digits (w := w) (rest := []) hne hd
    rw [List.append_nil] at this
    rw [this]
    exact .last (fun c hc => hw c (drop_sub hc)) hne hd
  | @cons w ds c s ns hw hne hd hc hs =>
    rw [List.append_assoc, drop_digits hne hd, ← List.append_assoc]
    exact .cons (fun c hc => hw c (drop_sub hc)) hne hd hc hs

/-- A list ends with a digit, and begins with one or with white space. -/
theorem Lists.ends {s : Text} {ns : List Nat} (h : Lists s ns) : ∃ u d, s = u ++ [d] ∧ d.isDigit = true := by
  induction h with
  | @last w ds hw hne hd =>
    rcases List.eq_nil_or_concat ds with h | ⟨u, d, h⟩
    · exact absurd h hne
    · exact ⟨w ++ u, d, by rw [h]; simp, hd d (by rw [h]; simp)⟩
  | @cons w ds c s ns hw hne hd hc hs ih =>
    obtain ⟨u, d, h1, h2⟩ := ih
    exact ⟨w ++ ds ++ u, d, by rw [h1, List.append_assoc (w ++ ds)], h2⟩

theorem Lists.begins {s : Text} {ns : List Nat} (h : Lists s ns) :
    ∃ c u, s = c :: u ∧ (isSpace c = true ∨ c.isDigit = true) := by
  have key : ∀ (w ds rest : Text), White w → ds ≠ [] → (∀ c ∈ ds, c.isDigit = true) →
      ∃ c u, w ++ ds ++ rest = c :: u ∧ (isSpace c = true ∨ c.isDigit = true) := by
    intro w ds rest hw hne hd
    cases w with
    | cons c w => exact ⟨c, _, rfl, Or.inl (hw c (by simp))⟩
    | nil =>
      cases ds with
      | nil => exact absurd rfl hne
      | cons d ds => exact ⟨d, _, rfl, Or.inr (hd d (by simp))⟩
  cases h with
  | last hw hne hd => simpa using key _ _ [] hw hne hd
  | cons hw hne hd hc hs => exact key _ _ _ hw hne hd

theorem trim_lists {s t : Text} {ns : List Nat} (h : Lists s ns) (ht : White t) :
    ∃ t', White t' ∧ Mesh.trim (s ++ t) = Mesh.drop s ++ t' := by
  obtain ⟨u, d, hu, hd⟩ := h.ends
  have hmem : d ∈ s ++ t := by rw [hu]; simp
  rw [Mesh.trim_of_not hmem (digit_not_blank hd)]
  have hds : Mesh.drop s = Mesh.drop u ++ [d] := by rw [hu, Mesh.drop_snoc _ (digit_not_blank hd)]
  have h1 : Mesh.drop (s ++ t) = Mesh.drop s ++ t := by
    rw [drop_append, if_neg (by rw [hds]; simp)]
  rw [h1, List.reverse_append, drop_append]
  split
  · refine ⟨[], by intro c hc; simp at hc, ?_⟩
    rw [hds, List.reverse_append, List.reverse_singleton, List.singleton_append,
      Mesh.drop_cons _ (digit_not_blank hd)]
    simp
  · refine ⟨(Mesh.drop t.reverse).reverse, ?_, by simp⟩
    intro c hc
    exact ht c (by simpa using drop_sub (List.mem_reverse.mp hc))

theorem not_comment {c : Char} (h : isSpace c = true ∨ c.isDigit = true) : ¬ Mesh.CommentStart c := by
  rintro (rfl | rfl | rfl) <;> exact absurd h (by decide)

theorem readLine_lists {s t : Text} {ns : List Nat} (h : Lists s ns) (ht : White t) (hpos : ∀ n ∈ ns, 1 ≤ n) :
    readLine (s ++ t) = .ok (ns.map (· - 1)) := by
  obtain ⟨t', ht', e⟩ := trim_lists h ht
  rw [readLine, e]
  have hn := lineNumbers_lists h.drop t' (Mesh.drop s ++ t').length ht' (by simp)
  rw [hn, if_neg, if_neg]
  · rw [List.map_map]
    congr 1
    refine List.map_congr_left fun n hn => ?_
    simp
  · intro h'
    obtain ⟨i, hi, h'⟩ := List.any_eq_true.mp h'
    obtain ⟨n, hn, rfl⟩ := List.mem_map.mp hi
    have := hpos n hn
    simp at h'
    omega
  · intro h'
    obtain ⟨c, u, hc, hc'⟩ := h.drop.begins
    rw [hc] at h'
    rcases (Mesh.isComment_iff _).mp h' with h' | ⟨d, v, h1, h2⟩
    · simp at h'
    · injection h1 with h1 _
      rw [← h1] at h2
      exact not_comment hc' h2

theorem readLine_white {t : Text} (ht : White t) : readLine t = .ok [] := by
  rw [readLine]
  split
  · rfl
  · have hw : White (Mesh.trim t) := by
      intro c hc
      refine ht c ?_
      by_cases h : ∃ d ∈ t, d ≠ ' '
      · obtain ⟨d, hd, hne⟩ := h
        obtain ⟨a, b, e, -⟩ := Mesh.trim_decompose hd hne
        rw [e]; simp [hc]
      · rw [Mesh.trim, if_pos] at hc
        · exact hc
        · exact List.all_eq_true.mpr fun d hd => by
            by_contra hne
            exact h ⟨d, hd, by simpa using hne⟩
    have : lineNumbers (Mesh.trim t).length (Mesh.trim t) = [] := by
      cases (Mesh.trim t).length with
      | zero => rfl
      | succ f => rw [lineNumbers, scanInt_white hw]
    rw [this]; simp

theorem readLine_silent {t : Text} (h : Mesh.Silent t) : readLine t = .ok [] := by
  rw [readLine, if_pos ((Mesh.silent_iff t).mpr h)]

theorem readLines_lists {ls : List Text} {nss : List (List Nat)} (h : List.Forall₂ LineLists ls nss) :
    readLines ls = .ok (nss.flatten.map (· - 1)) := by
  induction h with
  | nil => rfl
  | cons h _ ih =>
    rw [readLines, ih]
    cases h with
    | silent h => rw [readLine_silent h]; simp
    | white h => rw [readLine_white h]; simp
    | list h ht hp => rw [readLine_lists h ht hp]; simp

end Verif.Deck
