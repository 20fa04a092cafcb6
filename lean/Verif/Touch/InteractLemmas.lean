import Verif.Touch.InteractModel

/-! Lemmas on the set of interactions. -/

noncomputable section

namespace Verif.Touch

open Verif

theorem before_iff (a b : Entry) : before a b = true ↔
    a.1 < b.1 ∨ (a.1 = b.1 ∧ (a.2.1 < b.2.1 ∨ (a.2.1 = b.2.1 ∧ a.2.2 < b.2.2))) := by
  simp [before]

theorem before_trans {a b c : Entry} (h1 : before a b = true) (h2 : before b c = true) : before a c = true := by
  rw [before_iff] at *
  rcases h1 with h1 | ⟨h1, h1'⟩
  · rcases h2 with h2 | ⟨h2, _⟩
    · exact Or.inl (h1.trans h2)
    · exact Or.inl (h2 ▸ h1)
  · rcases h2 with h2 | ⟨h2, h2'⟩
    · exact Or.inl (h1 ▸ h2)
    · refine Or.inr ⟨h1.trans h2, ?_⟩
      rcases h1' with h1' | ⟨h1', h1''⟩
      · rcases h2' with h2' | ⟨h2', _⟩
        · exact Or.inl (h1'.trans h2')
        · exact Or.inl (h2' ▸ h1')
      · rcases h2' with h2' | ⟨h2', h2''⟩
        · exact Or.inl (h1' ▸ h2')
        · exact Or.inr ⟨h1'.trans h2', String.lt_trans h1'' h2''⟩

theorem before_total {a b : Entry} (h1 : before a b ≠ true) (h2 : a ≠ b) : before b a = true := by
  rw [Ne, before_iff] at h1
  rw [before_iff]
  push Not at h1
  obtain ⟨h3, h4⟩ := h1
  rcases Nat.lt_or_ge b.1 a.1 with h | h
  · exact Or.inl h
  · have e : a.1 = b.1 := Nat.le_antisymm h h3
    refine Or.inr ⟨e.symm, ?_⟩
    obtain ⟨h5, h6⟩ := h4 e
    rcases Nat.lt_or_ge b.2.1 a.2.1 with h | h
    · exact Or.inl h
    · have e2 : a.2.1 = b.2.1 := Nat.le_antisymm h h5
      refine Or.inr ⟨e2.symm, ?_⟩
      by_contra h7
      exact h2 (Prod.ext e (Prod.ext e2 (String.le_antisymm h7 (h6 e2))))

theorem mem_insertEntry (e x : Entry) (l : List Entry) : x ∈ insertEntry e l ↔ x = e ∨ x ∈ l := by
  induction l with
  | nil => simp [insertEntry]
  | cons a l ih =>
    rw [insertEntry]
    split
    · simp
    · split
      · rename_i h; subst h; simp
      · simp only [List.mem_cons, ih]
        tauto

theorem insertEntry_sorted (e : Entry) (l : List Entry) (h : l.Pairwise fun a b => before a b = true) :
    (insertEntry e l).Pairwise fun a b => before a b = true := by
  induction l with
  | nil => simp [insertEntry]
  | cons a l ih =>
    rw [List.pairwise_cons] at h
    rw [insertEntry]
    split
    · rename_i h1
      rw [List.pairwise_cons, List.pairwise_cons]
      refine ⟨?_, h⟩
      intro x hx
      rcases List.mem_cons.1 hx with rfl | hx
      · exact h1
      · exact before_trans h1 (h.1 x hx)
    · split
      · exact List.pairwise_cons.2 h
      · rename_i h1 h2
        rw [List.pairwise_cons]
        refine ⟨?_, ih h.2⟩
        intro x hx
        rcases (mem_insertEntry e x l).1 hx with rfl | hx
        · exact before_total h1 h2
        · exact h.1 x hx

theorem fold_entries (es s : List Entry) (h : s.Pairwise fun a b => before a b = true) :
    ((es.foldl (fun s e => insertEntry e s) s).Pairwise fun a b => before a b = true) ∧
      ∀ x, x ∈ es.foldl (fun s e => insertEntry e s) s ↔ x ∈ es ∨ x ∈ s := by
  induction es generalizing s with
  | nil => simpa using h
  | cons e es ih =>
    rw [List.foldl_cons]
    obtain ⟨h1, h2⟩ := ih (insertEntry e s) (insertEntry_sorted e s h)
    refine ⟨h1, fun x => ?_⟩
    rw [h2, mem_insertEntry, List.mem_cons]
    tauto

/-- What the loop keeps of a sorted list: for every pair the tuple with the greatest name. -/
theorem keepLast_eq (l : List Entry) (h : l.Pairwise fun a b => before a b = true) :
    (∀ x, x ∈ keepLast l ↔ x ∈ l ∧ ∀ z ∈ l, z.1 = x.1 → z.2.1 = x.2.1 → z.2.2 ≤ x.2.2) ∧
      (keepLast l).Pairwise fun a b => a.1 ≠ b.1 ∨ a.2.1 ≠ b.2.1 := by
  induction l with
  | nil => simp [keepLast]
  | cons e l ih =>
    cases l with
    | nil =>
      refine ⟨fun x => ?_, by simp [keepLast]⟩
      simp only [keepLast, List.mem_singleton]
      constructor
      · rintro rfl; exact ⟨rfl, by rintro z rfl _ _; exact String.le_refl _⟩
      · exact fun h => h.1
    | cons f l =>
      rw [List.pairwise_cons] at h
      obtain ⟨i1, i2⟩ := ih h.2
      rw [keepLast]
      by_cases hs : e.1 = f.1 ∧ e.2.1 = f.2.1
      · rw [if_pos hs]
        refine ⟨fun x => ?_, i2⟩
        rw [i1]
        have hef : e.2.2 < f.2.2 := by
          have := (before_iff e f).1 (h.1 f List.mem_cons_self)
          rcases this with h3 | ⟨_, h3 | ⟨_, h3⟩⟩
          · exact absurd hs.1 (Nat.ne_of_lt h3)
          · exact absurd hs.2 (Nat.ne_of_lt h3)
          · exact h3
        constructor
        · rintro ⟨h3, h4⟩
          refine ⟨List.mem_cons_of_mem _ h3, ?_⟩
          intro z hz h5 h6
          rcases List.mem_cons.1 hz with rfl | hz
          · exact String.le_trans (fun h8 => String.lt_irrefl _ (String.lt_trans h8 hef)) (h4 f List.mem_cons_self (hs.1 ▸ h5) (hs.2 ▸ h6))
          · exact h4 z hz h5 h6
        · rintro ⟨h3, h4⟩
          refine ⟨?_, fun z hz => h4 z (List.mem_cons_of_mem _ hz)⟩
          rcases List.mem_cons.1 h3 with rfl | h3
          · exact absurd (h4 f (List.mem_cons_of_mem _ List.mem_cons_self) hs.1.symm hs.2.symm) (String.not_le.2 hef)
          · exact h3
      · rw [if_neg hs]
        have hd : ∀ z ∈ f :: l, e.1 ≠ z.1 ∨ e.2.1 ≠ z.2.1 := by
          intro z hz
          by_contra hc
          push Not at hc
          rcases List.mem_cons.1 hz with rfl | hz
          · exact hs hc
          · have h3 := (before_iff e f).1 (h.1 f List.mem_cons_self)
            have h4 := (before_iff f z).1 ((List.pairwise_cons.1 h.2).1 z hz)
            apply hs
            rw [hc.1, hc.2] at h3 ⊢
            rcases h3 with h3 | ⟨h3, h3'⟩
            · rcases h4 with h4 | ⟨h4, _⟩ <;> omega
            · rcases h4 with h4 | ⟨h4, h4'⟩
              · omega
              · refine ⟨h3, ?_⟩
                rcases h3' with h3' | ⟨h3', _⟩
                · rcases h4' with h4' | ⟨h4', _⟩ <;> omega
                · exact h3'
        refine ⟨fun x => ?_, ?_⟩
        · rw [List.mem_cons, i1]
          constructor
          · rintro (rfl | ⟨h3, h4⟩)
            · refine ⟨List.mem_cons_self, ?_⟩
              intro z hz h5 h6
              rcases List.mem_cons.1 hz with rfl | hz
              · exact String.le_refl _
              · rcases hd z hz with h7 | h7
                · exact absurd h5.symm h7
                · exact absurd h6.symm h7
            · refine ⟨List.mem_cons_of_mem _ h3, ?_⟩
              intro z hz h5 h6
              rcases List.mem_cons.1 hz with rfl | hz
              · rcases hd x h3 with h7 | h7
                · exact absurd h5 h7
                · exact absurd h6 h7
              · exact h4 z hz h5 h6
          · rintro ⟨h3, h4⟩
            rcases List.mem_cons.1 h3 with rfl | h3
            · exact Or.inl rfl
            · exact Or.inr ⟨h3, fun z hz => h4 z (List.mem_cons_of_mem _ hz)⟩
        · rw [List.pairwise_cons]
          refine ⟨?_, i2⟩
          intro z hz
          exact hd z ((i1 z).1 hz).1

end Verif.Touch
