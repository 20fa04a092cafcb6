import Verif.Contact.InteractionsModel

/-!
# Properties C31 and C63: contact interactions
-/

namespace Verif.Contact

open Verif

variable {ν : Type} [LinearOrder ν]

/-! ### Lemmas -/

theorem tuple_ext {t u : Tuple ν} (h1 : t.first = u.first) (h2 : t.second = u.second) (h3 : t.model = u.model) :
    t = u := by
  apply ofLex.injective
  exact Prod.ext h1 (ofLex.injective (Prod.ext h2 h3))

theorem le_iff (t u : Tuple ν) : t ≤ u ↔ t.first < u.first ∨
    (t.first = u.first ∧ (t.second < u.second ∨ (t.second = u.second ∧ t.model ≤ u.model))) := by
  rw [Prod.Lex.le_iff, Prod.Lex.le_iff]
  rfl

theorem mem_setInsert (s : List (Tuple ν)) (t u : Tuple ν) : u ∈ setInsert s t ↔ u = t ∨ u ∈ s := by
  unfold setInsert
  split
  · constructor
    · exact Or.inr
    · rintro (rfl | h)
      · assumption
      · exact h
  · rw [List.mem_orderedInsert]

theorem lt_setInsert (s : List (Tuple ν)) (t : Tuple ν) (h : s.Pairwise (· < ·)) :
    (setInsert s t).Pairwise (· < ·) := by
  unfold setInsert
  split
  · exact h
  · rename_i hm
    have hn : (s.orderedInsert (· ≤ ·) t).Nodup :=
      (List.perm_orderedInsert (· ≤ ·) t s).nodup_iff.2 (List.nodup_cons.2 ⟨hm, h.imp ne_of_lt⟩)
    have hs : (s.orderedInsert (· ≤ ·) t).Pairwise (· ≤ ·) := (h.imp le_of_lt).orderedInsert t s
    exact (hs.and hn).imp fun x => lt_of_le_of_ne x.1 x.2

theorem mem_foldl (l s : List (Tuple ν)) (u : Tuple ν) : u ∈ l.foldl setInsert s ↔ u ∈ l ∨ u ∈ s := by
  induction l generalizing s with
  | nil => simp
  | cons t l ih =>
    rw [List.foldl_cons, ih, mem_setInsert, List.mem_cons]
    tauto

theorem lt_foldl (l s : List (Tuple ν)) (h : s.Pairwise (· < ·)) : (l.foldl setInsert s).Pairwise (· < ·) := by
  induction l generalizing s with
  | nil => exact h
  | cons t l ih => exact ih _ (lt_setInsert s t h)

theorem mem_dropDuplicates (s : List (Tuple ν)) (h : s.Pairwise (· < ·)) (t : Tuple ν) :
    t ∈ dropDuplicates s ↔ t ∈ s ∧ ∀ u ∈ s, u.first = t.first → u.second = t.second → u.model ≤ t.model := by
  induction s using dropDuplicates.induct with
  | case1 => simp [dropDuplicates]
  | case2 a =>
    simp only [dropDuplicates, List.mem_singleton]
    constructor
    · rintro rfl
      exact ⟨rfl, by rintro u rfl _ _; exact le_refl _⟩
    · exact And.left
  | case3 a b rest hab ih =>
    rw [dropDuplicates, if_pos hab, ih (List.pairwise_cons.1 h).2]
    have hlt := (List.pairwise_cons.1 h).1
    have hab' : a ≤ b := le_of_lt (hlt b List.mem_cons_self)
    rw [le_iff] at hab'
    have hm : a.model ≤ b.model := by
      rcases hab' with h1 | ⟨_, h1 | ⟨_, h1⟩⟩
      · omega
      · omega
      · exact h1
    constructor
    · rintro ⟨h1, h2⟩
      refine ⟨List.mem_cons_of_mem _ h1, ?_⟩
      intro u hu h3 h4
      rcases List.mem_cons.1 hu with rfl | hu
      · exact hm.trans (h2 b List.mem_cons_self (hab.1 ▸ h3) (hab.2 ▸ h4))
      · exact h2 u hu h3 h4
    · rintro ⟨h1, h2⟩
      refine ⟨?_, fun u hu => h2 u (List.mem_cons_of_mem _ hu)⟩
      rcases List.mem_cons.1 h1 with rfl | h1
      · have h3 := h2 b (List.mem_cons_of_mem _ List.mem_cons_self) hab.1.symm hab.2.symm
        have : t = b := tuple_ext hab.1 hab.2 (le_antisymm hm h3)
        exact absurd this (ne_of_lt (hlt b List.mem_cons_self))
      · exact h1
  | case4 a b rest hab ih =>
    rw [dropDuplicates, if_neg hab, List.mem_cons, ih (List.pairwise_cons.1 h).2]
    have hlt := (List.pairwise_cons.1 h).1
    have hsep : ∀ u ∈ b :: rest, ¬ (u.first = a.first ∧ u.second = a.second) := by
      intro u hu hc
      have h1 : a ≤ b := le_of_lt (hlt b List.mem_cons_self)
      have h2 : b ≤ u := by
        rcases List.mem_cons.1 hu with rfl | hu
        · exact le_refl _
        · exact le_of_lt ((List.pairwise_cons.1 (List.pairwise_cons.1 h).2).1 u hu)
      rw [le_iff] at h1 h2
      apply hab
      constructor
      · rcases h1 with h1 | ⟨h1, _⟩
        · rcases h2 with h2 | ⟨h2, _⟩ <;> omega
        · exact h1
      · rcases h1 with h1 | ⟨h1, h1' | ⟨h1', _⟩⟩
        · rcases h2 with h2 | ⟨h2, _⟩ <;> omega
        · rcases h2 with h2 | ⟨h2, h2' | ⟨h2', _⟩⟩ <;> omega
        · exact h1'
    constructor
    · rintro (rfl | ⟨h1, h2⟩)
      · refine ⟨List.mem_cons_self, ?_⟩
        intro u hu h3 h4
        rcases List.mem_cons.1 hu with rfl | hu
        · exact le_refl _
        · exact absurd ⟨h3, h4⟩ (hsep u hu)
      · refine ⟨List.mem_cons_of_mem _ h1, ?_⟩
        intro u hu h3 h4
        rcases List.mem_cons.1 hu with rfl | hu
        · exact absurd ⟨h3.symm, h4.symm⟩ (hsep t h1)
        · exact h2 u hu h3 h4
    · rintro ⟨h1, h2⟩
      rcases List.mem_cons.1 h1 with rfl | h1
      · exact Or.inl rfl
      · exact Or.inr ⟨h1, fun u hu => h2 u (List.mem_cons_of_mem _ hu)⟩

theorem lt_dropDuplicates (s : List (Tuple ν)) (h : s.Pairwise (· < ·)) :
    (dropDuplicates s).Pairwise (· < ·) := by
  have hsub : (dropDuplicates s).Sublist s := by
    clear h
    induction s using dropDuplicates.induct with
    | case1 => simp [dropDuplicates]
    | case2 a => simp [dropDuplicates]
    | case3 a b rest hab ih => rw [dropDuplicates, if_pos hab]; exact ih.cons a
    | case4 a b rest hab ih => rw [dropDuplicates, if_neg hab]; exact ih.cons_cons a
  exact h.sublist hsub

/-! ### C31 -/

/-- What the input defines for the blocks `a` and `b` in this order: a model given by an individual definition; or,
with the smaller id first, by self contact for a block and itself and by general contact for two blocks. -/
def Defined (inp : Input ν) (blocks : List Int) (a b : Int) (m : ν) : Prop :=
  (a, b, m) ∈ inp.definitions ∨
  ∃ (i j : Nat) (x y : Int), blocks[i]? = some x ∧ blocks[j]? = some y ∧ a = min x y ∧ b = max x y ∧
    (i = j ∧ inp.self = some m ∨ i ≠ j ∧ inp.general = some m)

theorem mem_pairTuples (inp : Input ν) (x y : Nat × Int) (t : Tuple ν) :
    t ∈ pairTuples inp x y ↔ t.first = min x.2 y.2 ∧ t.second = max x.2 y.2 ∧
      (x.1 = y.1 ∧ inp.self = some t.model ∨ x.1 ≠ y.1 ∧ inp.general = some t.model) := by
  have h1 : (if x.2 > y.2 then y.2 else x.2) = min x.2 y.2 := by split <;> omega
  have h2 : (if x.2 > y.2 then x.2 else y.2) = max x.2 y.2 := by split <;> omega
  have key : ∀ (o : Option ν) (p : Bool), t ∈ guarded o p (min x.2 y.2) (max x.2 y.2) ↔
      t.first = min x.2 y.2 ∧ t.second = max x.2 y.2 ∧ p = true ∧ o = some t.model := by
    intro o p
    unfold guarded
    cases o with
    | none => simp
    | some m =>
      cases p with
      | true =>
        simp only [if_true, List.mem_singleton, true_and, Option.some.injEq]
        constructor
        · rintro rfl; exact ⟨rfl, rfl, rfl⟩
        · rintro ⟨e1, e2, e3⟩; exact tuple_ext e1 e2 e3.symm
      | false => simp
  unfold pairTuples
  simp only [h1, h2]
  rw [List.mem_append, key, key, decide_eq_true_eq, decide_eq_true_eq]
  tauto

theorem mem_generalTuples (inp : Input ν) (blocks : List Int) (t : Tuple ν) :
    t ∈ generalTuples inp blocks ↔
      ∃ (i j : Nat) (x y : Int), blocks[i]? = some x ∧ blocks[j]? = some y ∧ t.first = min x y ∧
        t.second = max x y ∧ (i = j ∧ inp.self = some t.model ∨ i ≠ j ∧ inp.general = some t.model) := by
  unfold generalTuples
  simp only [List.mem_flatMap, mem_pairTuples]
  have hm : ∀ x : Nat × Int, x ∈ blocks.mapIdx (fun i b => (i, b)) ↔ blocks[x.1]? = some x.2 := by
    intro x
    rw [List.mem_mapIdx]
    constructor
    · rintro ⟨i, hi, rfl⟩
      exact List.getElem?_eq_getElem hi
    · intro h
      obtain ⟨h1, h2⟩ := List.getElem?_eq_some_iff.1 h
      exact ⟨x.1, h1, by rw [h2]⟩
  constructor
  · rintro ⟨x, hx, y, hy, h⟩
    exact ⟨x.1, y.1, x.2, y.2, (hm x).1 hx, (hm y).1 hy, h⟩
  · rintro ⟨i, j, x, y, hx, hy, h⟩
    exact ⟨(i, x), (hm (i, x)).2 hx, (j, y), (hm (j, y)).2 hy, h⟩

theorem mem_set (inp : Input ν) (blocks : List Int) (t : Tuple ν) :
    t ∈ interactionSet inp blocks ↔ Defined inp blocks t.first t.second t.model := by
  unfold interactionSet Defined individualTuples
  rw [mem_foldl, List.mem_append, mem_generalTuples]
  simp only [List.not_mem_nil, or_false, List.mem_map]
  constructor
  · rintro (h | ⟨d, hd, rfl⟩)
    · exact Or.inr h
    · exact Or.inl hd
  · rintro (h | h)
    · exact Or.inr ⟨_, h, rfl⟩
    · exact Or.inl h

/-- C31, the part that holds: if the input defines any contact at all, then for every two blocks, in the order in
which they were named, the result has an interaction exactly if the input defines one, it has only one, and the model
is the greatest of the given names in the order of strings.
Missing for C31: definitions that name the same two blocks in the other order are not recognised as the same pair, and
of several definitions not the last is used but the one with the greatest model name
(`C31_fails_swapped`, `C31_fails_last`); an empty section is undefined behaviour (`C31_fails_empty`). -/
theorem C31_ordered_partial (inp : Input ν) (blocks : List Int)
    (hne : ∃ a b m, Defined inp blocks a b m) :
    ∃ res, interactions inp blocks = .ok res ∧
      (∀ t, t ∈ res ↔ Defined inp blocks t.first t.second t.model ∧
        ∀ m, Defined inp blocks t.first t.second m → m ≤ t.model) ∧
      res.Nodup ∧ ∀ t ∈ res, ∀ u ∈ res, t.first = u.first → t.second = u.second → t = u := by
  have hlt : (interactionSet inp blocks).Pairwise (· < ·) := lt_foldl _ _ .nil
  obtain ⟨a, b, m, hd⟩ := hne
  have hm : tuple a b m ∈ interactionSet inp blocks := (mem_set inp blocks _).2 hd
  have hok : interactions inp blocks = .ok (dropDuplicates (interactionSet inp blocks)) := by
    unfold interactions
    cases hs : interactionSet inp blocks with
    | nil => rw [hs] at hm; cases hm
    | cons x s => rfl
  have hmem : ∀ t, t ∈ dropDuplicates (interactionSet inp blocks) ↔
      Defined inp blocks t.first t.second t.model ∧
        ∀ m, Defined inp blocks t.first t.second m → m ≤ t.model := by
    intro t
    rw [mem_dropDuplicates _ hlt, mem_set]
    constructor
    · rintro ⟨h1, h2⟩
      exact ⟨h1, fun m hm => h2 (tuple t.first t.second m) ((mem_set inp blocks _).2 hm) rfl rfl⟩
    · rintro ⟨h1, h2⟩
      refine ⟨h1, fun u hu h3 h4 => h2 u.model ?_⟩
      have := (mem_set inp blocks u).1 hu
      rwa [h3, h4] at this
  refine ⟨_, hok, hmem, (lt_dropDuplicates _ hlt).imp ne_of_lt, ?_⟩
  intro t ht u hu h1 h2
  obtain ⟨t1, t2⟩ := (hmem t).1 ht
  obtain ⟨u1, u2⟩ := (hmem u).1 hu
  exact tuple_ext h1 h2 (le_antisymm (u2 _ (h1 ▸ h2 ▸ t1)) (t2 _ (h1 ▸ h2 ▸ u1)))

/-- C31, the part that holds, for inputs whose individual definitions name the block with the smaller id first and
give no pair two different models: every pair of blocks, whichever way round, has at most one interaction, and it has
the model the input defines. -/
theorem C31_one_per_pair_partial (inp : Input ν) (blocks : List Int)
    (hne : ∃ a b m, Defined inp blocks a b m) (hord : ∀ d ∈ inp.definitions, d.1 ≤ d.2.1)
    (huniq : ∀ a b m m', Defined inp blocks a b m → Defined inp blocks a b m' → m = m') :
    ∃ res, interactions inp blocks = .ok res ∧
      (∀ a b m, tuple a b m ∈ res ↔ Defined inp blocks a b m) ∧
      ∀ t ∈ res, ∀ u ∈ res, (t.first = u.first ∧ t.second = u.second) ∨
        (t.first = u.second ∧ t.second = u.first) → t = u := by
  obtain ⟨res, h1, h2, _, h4⟩ := C31_ordered_partial inp blocks hne
  have hle : ∀ t ∈ res, t.first ≤ t.second := by
    intro t ht
    rcases ((h2 t).1 ht).1 with h | h
    · exact hord _ h
    · obtain ⟨_, _, x, y, _, _, e1, e2, _⟩ := h
      omega
  refine ⟨res, h1, ?_, ?_⟩
  · intro a b m
    rw [h2]
    constructor
    · exact And.left
    · exact fun h => ⟨h, fun m' hm' => le_of_eq (huniq a b m' m hm' h)⟩
  · rintro t ht u hu (⟨e1, e2⟩ | ⟨e1, e2⟩)
    · exact h4 t ht u hu e1 e2
    · have := hle t ht
      have := hle u hu
      exact h4 t ht u hu (by omega) (by omega)

/-- Non-vacuity: three blocks, general contact with model 5, self contact with model 7 and an individual
definition. -/
example : interactions (ν := Nat) ⟨some 5, some 7, [(1, 4, 9)]⟩ [2, 1] =
    .ok [tuple 1 1 7, tuple 1 2 5, tuple 1 4 9, tuple 2 2 7] := by decide

/-- C31 fails: definitions that name two blocks in different order both remain. -/
theorem C31_fails_swapped : interactions (ν := Nat) ⟨none, none, [(1, 2, 5), (2, 1, 6)]⟩ [1, 2] =
    .ok [tuple 1 2 5, tuple 2 1 6] := by decide

/-- C31 fails: the last definition, with model 5, is dropped in favour of the earlier one with model 6. -/
theorem C31_fails_last : interactions (ν := Nat) ⟨none, none, [(1, 2, 6), (1, 2, 5)]⟩ [1, 2] =
    .ok [tuple 1 2 6] := by decide

/-- C31 fails: an individual definition with model 5 does not replace general contact with model 6. -/
theorem C31_fails_general : interactions (ν := Nat) ⟨some 6, none, [(1, 2, 5)]⟩ [1, 2] =
    .ok [tuple 1 2 6] := by decide

/-- C31 fails: without any definition the behaviour is undefined. -/
theorem C31_fails_empty (blocks : List Int) : interactions (ν := ν) ⟨none, none, []⟩ blocks = .ub := by
  have : interactionSet (ν := ν) ⟨none, none, []⟩ blocks = [] := by
    have h : generalTuples (ν := ν) ⟨none, none, []⟩ blocks = [] := by
      unfold generalTuples
      simp [pairTuples, guarded]
    unfold interactionSet
    rw [h]
    rfl
  rw [interactions, this]

/-! ### C63 -/

/-- C63 as it is meant: two blocks interact by contact exactly if the input defines an interaction for them, and then
with the model it names. -/
def UsesInteractions (models : List ν) (ints : List (Tuple ν)) : Prop :=
  ∀ a b m, pairModel models ints a b = .ok m → tuple a b m ∈ ints ∨ tuple b a m ∈ ints

/-- C63 fails: with an interaction only between blocks 1 and 2, with the second of two models, blocks 3 and 4 also
interact, and blocks 1 and 2 interact with the first model. -/
theorem C63_fails : pairModel (ν := Nat) [5, 6] [tuple 1 2 6] 3 4 = .ok 5 ∧
    pairModel (ν := Nat) [5, 6] [tuple 1 2 6] 1 2 = .ok 5 ∧
    ¬ UsesInteractions (ν := Nat) [5, 6] [tuple 1 2 6] := by
  refine ⟨rfl, rfl, ?_⟩
  intro h
  have := h 3 4 5 rfl
  revert this
  decide

/-- C63, the part that holds: with one contact model and an interaction for every pair of blocks that occurs, the model
used is the one defined. -/
theorem C63_single_model_partial (m : ν) (ints : List (Tuple ν)) (hm : ∀ t ∈ ints, t.model = m)
    (a b : Int) (h : ∃ t ∈ ints, t.first = a ∧ t.second = b ∨ t.first = b ∧ t.second = a) :
    ∃ m', pairModel [m] ints a b = .ok m' ∧ (tuple a b m' ∈ ints ∨ tuple b a m' ∈ ints) := by
  refine ⟨m, rfl, ?_⟩
  obtain ⟨t, ht, h | h⟩ := h
  · left
    have : tuple a b m = t := tuple_ext h.1.symm h.2.symm (hm t ht).symm
    rwa [this]
  · right
    have : tuple b a m = t := tuple_ext h.1.symm h.2.symm (hm t ht).symm
    rwa [this]

example : ∃ t ∈ [tuple (ν := Nat) 1 2 6], t.first = 2 ∧ t.second = 1 ∨ t.first = 1 ∧ t.second = 2 := by decide

end Verif.Contact
