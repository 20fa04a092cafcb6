import Verif.Sections.Spec
import Verif.Field.Props
import Verif.BC.Lemmas

/-! # Lemmas on the sections of output -/

noncomputable section

namespace Verif.Sections

open Verif Verif.Field

/-! ### Entries -/

theorem lookup_iff {s : Section} (h : (s.map Prod.fst).Nodup) (n : String) (v : Entry) :
    s.lookup n = some v ↔ (n, v) ∈ s := by
  induction s with
  | nil => simp
  | cons a s ih =>
    obtain ⟨m, w⟩ := a
    rw [List.map_cons, List.nodup_cons] at h
    rw [List.lookup_cons, List.mem_cons]
    by_cases hm : n = m
    · subst hm
      simp only [BEq.rfl, Option.some.injEq, Prod.mk.injEq, true_and]
      constructor
      · intro h'; exact Or.inl h'.symm
      · rintro (h' | h')
        · exact h'.symm
        · exact absurd (List.mem_map.2 ⟨_, h', rfl⟩) h.1
    · have : (n == m) = false := by simpa using hm
      rw [this]
      simp only [Prod.mk.injEq, hm, false_and, false_or]
      exact ih h.2

theorem lookup_none_iff (s : Section) (n : String) :
    s.lookup n = none ↔ ∀ w, (n, w) ∉ s := by
  induction s with
  | nil => simp
  | cons a s ih =>
    obtain ⟨m, w⟩ := a
    rw [List.lookup_cons]
    by_cases hm : n = m
    · subst hm
      simp only [BEq.rfl, List.mem_cons, Prod.mk.injEq, true_and, reduceCtorEq, false_iff]
      intro h
      exact h w (Or.inl rfl)
    · have : (n == m) = false := by simpa using hm
      rw [this]
      simp only [List.mem_cons, Prod.mk.injEq, hm, false_and, false_or]
      exact ih

theorem mem_set (s : Section) (n : String) (v : Entry) (m : String) (w : Entry) :
    (m, w) ∈ s.set n v ↔ (m = n ∧ w = v) ∨ (m ≠ n ∧ (m, w) ∈ s) := by
  unfold Section.set
  by_cases hn : n ∈ s.map Prod.fst
  · rw [if_pos hn, List.mem_map]
    constructor
    · rintro ⟨⟨a, b⟩, hab, he⟩
      dsimp only at he
      by_cases ha : a = n
      · rw [if_pos ha] at he
        exact Or.inl ⟨(congrArg Prod.fst he).symm, (congrArg Prod.snd he).symm⟩
      · rw [if_neg ha] at he
        obtain ⟨rfl, rfl⟩ := Prod.mk.inj he
        exact Or.inr ⟨ha, hab⟩
    · rintro (⟨rfl, rfl⟩ | ⟨h1, h2⟩)
      · obtain ⟨⟨a, b⟩, hab, he⟩ := List.mem_map.1 hn
        exact ⟨(a, b), hab, by dsimp only at he ⊢; rw [if_pos he]⟩
      · exact ⟨(m, w), h2, by dsimp only; rw [if_neg h1]⟩
  · rw [if_neg hn, List.mem_append, List.mem_singleton, Prod.mk.injEq]
    constructor
    · rintro (h | h)
      · refine Or.inr ⟨?_, h⟩
        rintro rfl
        exact hn (List.mem_map.2 ⟨_, h, rfl⟩)
      · exact Or.inl h
    · rintro (h | h)
      · exact Or.inr h
      · exact Or.inl h.2

theorem nodup_set {s : Section} (h : (s.map Prod.fst).Nodup) (n : String) (v : Entry) :
    ((s.set n v).map Prod.fst).Nodup := by
  unfold Section.set
  by_cases hn : n ∈ s.map Prod.fst
  · rw [if_pos hn, List.map_map]
    have : (Prod.fst ∘ fun e : String × Entry => if e.1 = n then (n, v) else e) = Prod.fst := by
      funext e
      dsimp only [Function.comp]
      split
      · rename_i he; exact he.symm
      · rfl
    rw [this]
    exact h
  · rw [if_neg hn, List.map_append]
    refine List.nodup_append.2 ⟨h, by simp, ?_⟩
    intro a ha b hb
    have : b = n := by simpa using hb
    rintro rfl
    exact hn (this ▸ ha)

/-! ### Fields -/

section
variable {rs : List Request} {ids : List Nat} {fm : FieldManager}

theorem spec_of_mem (h : Registered rs ids fm) {r : Request} (hr : r ∈ rs) :
    ∃ sp, getFieldSpecByLabel fm r.label = .ok sp ∧ sp.label = r.label ∧ sp.relation = r.relation ∧
      sp.length = r.length ∧ sp.temporal = r.temporal := by
  obtain ⟨i, hi, rfl⟩ := List.getElem_of_mem hr
  have hl := (C01_field_ids rs ids fm h.run).1
  have := (C02_labels rs ids fm h.run).2.2.2 i hi (by omega)
  exact ⟨_, this.2.1, rfl, rfl, rfl, rfl⟩

theorem validVariables_ok (h : Registered rs ids fm) :
    ∃ names, validVariables fm = .ok names ∧ ∀ n, n ∈ names ↔ ∃ r ∈ rs, r.label = n ∧ r.relation ≠ .bond := by
  obtain ⟨p, hp, hp1, hp2, -⟩ := spec_of_mem h h.proc
  obtain ⟨e, he, he1, he2, -⟩ := spec_of_mem h h.element
  refine ⟨_, by rw [validVariables, hp]; simp only [Outcome.ok_bind]; rw [he]; simp only [Outcome.ok_bind]; rfl, ?_⟩
  obtain ⟨-, hR, -⟩ := run_ok h.run
  intro n
  rw [List.map_append, List.mem_append]
  constructor
  · rintro (hn | hn)
    · obtain ⟨sp, hsp, rfl⟩ := List.mem_map.1 hn
      obtain ⟨h1, h2⟩ := List.mem_filter.1 hsp
      rw [hR.specs, List.mem_mapIdx] at h1
      obtain ⟨i, hi, rfl⟩ := h1
      exact ⟨_, mem_distinctInOrder.1 (List.getElem_mem hi), rfl, of_decide_eq_true h2⟩
    · simp only [List.map_cons, List.map_nil, List.mem_cons, List.not_mem_nil, or_false] at hn
      rcases hn with rfl | rfl
      · exact ⟨_, h.proc, hp1.symm, by decide⟩
      · exact ⟨_, h.element, he1.symm, by decide⟩
  · rintro ⟨r, hr, rfl, hb⟩
    refine Or.inl (List.mem_map.2 ?_)
    obtain ⟨i, hi, hri⟩ := List.getElem_of_mem (mem_distinctInOrder.2 hr)
    refine ⟨toSpec i r, List.mem_filter.2 ⟨?_, decide_eq_true hb⟩, rfl⟩
    rw [hR.specs, List.mem_mapIdx]
    exact ⟨i, hi, by rw [hri]⟩

theorem requested_ok (h : Registered rs ids fm) (l : List (String × Bool))
    (hl : ∀ n b, (n, b) ∈ l → ∃ r ∈ rs, r.label = n) :
    ∃ vars, Exodus.requested fm l = .ok vars ∧ vars.map Exodus.Var.name = l.map Prod.fst ∧
      ∀ v ∈ vars, ∃ r ∈ rs, r.label = v.name ∧ v.spec.label = v.name ∧ v.spec.relation = r.relation ∧
        v.spec.length = r.length ∧ v.spec.temporal = r.temporal := by
  induction l with
  | nil => exact ⟨[], rfl, rfl, by simp⟩
  | cons a l ih =>
    obtain ⟨n, b⟩ := a
    obtain ⟨vars, h1, h2, h3⟩ := ih fun n b hm => hl n b (List.mem_cons_of_mem _ hm)
    obtain ⟨r, hr, rfl⟩ := hl n b List.mem_cons_self
    obtain ⟨sp, hs, e1, e2, e3, e4⟩ := spec_of_mem h hr
    refine ⟨⟨r.label, sp⟩ :: vars, ?_, by simp [h2], ?_⟩
    · rw [Exodus.requested, hs]
      simp only [Outcome.ok_bind]
      rw [h1]
      rfl
    · intro v hv
      rcases List.mem_cons.1 hv with rfl | hv
      · exact ⟨r, hr, rfl, e1, e2, e3, e4⟩
      · exact h3 v hv

/-! ### Validation -/

theorem entryValid_of_known {names : List String} {n : String} {v : Entry} (h : entryValid names (n, v) = true) :
    n ∈ knownNames := by
  unfold entryValid at h
  dsimp only at h
  by_contra hn
  have : validEntries.lookup n = none := by
    rw [List.lookup_eq_none_iff]
    intro p hp
    simp only [validEntries, List.mem_cons, List.not_mem_nil, or_false] at hp
    simp only [knownNames, List.mem_cons, List.not_mem_nil, or_false, not_or] at hn
    simp only [bne_iff_ne, ne_eq]
    rcases hp with rfl | rfl | rfl | rfl | rfl | rfl | rfl | rfl | rfl | rfl <;> simp_all
  rw [this] at h
  cases h

/-- A section that `Peridigm` has prepared: the number of processors, the rank and the type of the file are in it. -/
structure Prepared (np pid : Int) (s t : Section) : Prop where
  nodup : (t.map Prod.fst).Nodup
  numProc : ∀ v, ("NumProc", v) ∈ t ↔ v = .int np
  rank : ∀ v, ("MyPID", v) ∈ t ↔ v = .int pid
  fileType : ∀ v, ("Output File Type", v) ∈ t ↔ v = .text "ExodusII"
  rest : ∀ n v, n ≠ "NumProc" → n ≠ "MyPID" → n ≠ "Output File Type" → ((n, v) ∈ t ↔ (n, v) ∈ s)

/-- The section after the ranks are put in. -/
def ranked (np pid : Int) (s : Section) : Section := (s.set "NumProc" (.int np)).set "MyPID" (.int pid)

theorem mem_ranked (np pid : Int) (s : Section) (n : String) (v : Entry) :
    (n, v) ∈ ranked np pid s ↔ (n = "MyPID" ∧ v = .int pid) ∨ (n = "NumProc" ∧ v = .int np) ∨
      (n ≠ "MyPID" ∧ n ≠ "NumProc" ∧ (n, v) ∈ s) := by
  rw [ranked, mem_set, mem_set]
  constructor
  · rintro (h | ⟨h1, h | h⟩)
    · exact Or.inl h
    · exact Or.inr (Or.inl h)
    · exact Or.inr (Or.inr ⟨h1, h.1, h.2⟩)
  · rintro (h | h | h)
    · exact Or.inl h
    · exact Or.inr ⟨by rw [h.1]; decide, Or.inl h⟩
    · exact Or.inr ⟨h.1, Or.inr ⟨h.2.1, h.2.2⟩⟩

theorem ranked_nodup {s : Section} (h : (s.map Prod.fst).Nodup) (np pid : Int) :
    ((ranked np pid s).map Prod.fst).Nodup := nodup_set (nodup_set h _ _) _ _

/-- The type of the file: accepted exactly if the section gives none or `ExodusII`. -/
theorem fileType_cases {s : Section} (h : (s.map Prod.fst).Nodup) (np pid : Int) :
    (∃ t, (ranked np pid s).fileType = .ok ("ExodusII", t) ∧ Prepared np pid s t ∧
      ∀ v, ("Output File Type", v) ∈ s → v = .text "ExodusII") ∨
    ((∃ v, ("Output File Type", v) ∈ s ∧ v ≠ .text "ExodusII") ∧
      ((∃ x t, (ranked np pid s).fileType = .ok (x, t) ∧ x ≠ "ExodusII") ∨
        (ranked np pid s).fileType = .fail .runtimeError)) := by
  have hn := ranked_nodup h np pid
  have hm : ∀ v, ("Output File Type", v) ∈ ranked np pid s ↔ ("Output File Type", v) ∈ s := by
    intro v
    rw [mem_ranked]
    constructor
    · rintro (⟨h1, -⟩ | ⟨h1, -⟩ | h1)
      · exact absurd h1 (by decide)
      · exact absurd h1 (by decide)
      · exact h1.2.2
    · intro h1
      exact Or.inr (Or.inr ⟨by decide, by decide, h1⟩)
  have hnp : ∀ v, ("NumProc", v) ∈ ranked np pid s ↔ v = .int np := by
    intro v
    rw [mem_ranked]
    constructor
    · rintro (⟨h1, -⟩ | ⟨-, h1⟩ | h1)
      · exact absurd h1 (by decide)
      · exact h1
      · exact absurd rfl h1.2.1
    · intro h1
      exact Or.inr (Or.inl ⟨rfl, h1⟩)
  have hpid : ∀ v, ("MyPID", v) ∈ ranked np pid s ↔ v = .int pid := by
    intro v
    rw [mem_ranked]
    constructor
    · rintro (⟨-, h1⟩ | ⟨h1, -⟩ | h1)
      · exact h1
      · exact absurd h1 (by decide)
      · exact absurd rfl h1.1
    · intro h1
      exact Or.inl ⟨rfl, h1⟩
  have hrest : ∀ n v, n ≠ "NumProc" → n ≠ "MyPID" → ((n, v) ∈ ranked np pid s ↔ (n, v) ∈ s) := by
    intro n v h1 h2
    rw [mem_ranked]
    constructor
    · rintro (h' | h' | h')
      · exact absurd h'.1 h2
      · exact absurd h'.1 h1
      · exact h'.2.2
    · intro h'
      exact Or.inr (Or.inr ⟨h2, h1, h'⟩)
  cases hl : (ranked np pid s).lookup "Output File Type" with
  | none =>
    left
    have hno := (lookup_none_iff _ _).1 hl
    refine ⟨(ranked np pid s).set "Output File Type" (.text "ExodusII"), ?_, ⟨nodup_set hn _ _, ?_, ?_, ?_, ?_⟩, ?_⟩
    · rw [Section.fileType, hl]
    · intro v
      rw [mem_set, ← hnp v]
      exact ⟨fun h' => h'.elim (fun x => absurd x.1 (by decide)) fun x => x.2, fun h' => Or.inr ⟨by decide, h'⟩⟩
    · intro v
      rw [mem_set, ← hpid v]
      exact ⟨fun h' => h'.elim (fun x => absurd x.1 (by decide)) fun x => x.2, fun h' => Or.inr ⟨by decide, h'⟩⟩
    · intro v
      rw [mem_set]
      exact ⟨fun h' => h'.elim (fun x => x.2) fun x => absurd rfl x.1, fun h' => Or.inl ⟨rfl, h'⟩⟩
    · intro n v h1 h2 h3
      rw [mem_set, ← hrest n v h1 h2]
      exact ⟨fun h' => h'.elim (fun x => absurd x.1 h3) fun x => x.2, fun h' => Or.inr ⟨h3, h'⟩⟩
    · intro v hv
      exact absurd ((hm v).2 hv) (hno v)
  | some v =>
    have hv := (lookup_iff hn _ _).1 hl
    have huniq : ∀ w, ("Output File Type", w) ∈ ranked np pid s → w = v := by
      intro w hw
      have := (lookup_iff hn _ _).2 hw
      rw [hl] at this
      exact (Option.some.inj this).symm
    by_cases he : v = .text "ExodusII"
    · left
      subst he
      refine ⟨ranked np pid s, ?_, ⟨hn, hnp, hpid, ?_, fun n v h1 h2 _ => hrest n v h1 h2⟩, ?_⟩
      · rw [Section.fileType, hl]
      · intro w
        exact ⟨huniq w, fun h' => by rw [h']; exact hv⟩
      · intro w hw
        exact huniq w ((hm w).2 hw)
    · right
      refine ⟨⟨v, (hm v).1 hv, he⟩, ?_⟩
      rw [Section.fileType, hl]
      cases v with
      | text x =>
        exact Or.inl ⟨x, _, rfl, fun hx => he (by rw [hx])⟩
      | int _ => exact Or.inr rfl
      | number => exact Or.inr rfl
      | flag _ => exact Or.inr rfl
      | list _ => exact Or.inr rfl

end

end Verif.Sections
