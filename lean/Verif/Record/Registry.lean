import Verif.Record.Lemmas

/-!
# Lemmas for C248: the registry and the reductions
-/

namespace Verif.Record

open Verif Verif.Field Verif.Setup

/-- The names of the registered fields. -/
def names (fm : FieldManager) : List String := fm.labelToIdMap.map Prod.fst

theorem names_getFieldId {fm : FieldManager} {r : Request} {x : Nat × FieldManager} (h : getFieldId fm r = .ok x) :
    ∀ l ∈ names x.2, l ∈ names fm ∨ l = r.label := by
  rw [getFieldId] at h
  split at h
  · cases h
    exact fun l hl => .inl hl
  · split at h
    · cases h
    · cases h
      intro l hl
      rcases List.mem_cons.1 hl with h | h
      · exact .inr h
      · exact .inl h

theorem mem_of_lookup {l : List (String × Nat)} {k : String} {v : Nat} (h : l.lookup k = some v) :
    k ∈ l.map Prod.fst := by
  induction l with
  | nil => cases h
  | cons e l ih =>
    obtain ⟨a, b⟩ := e
    by_cases hk : k = a
    · rw [hk]
      exact List.mem_cons_self ..
    · rw [List.lookup, beq_eq_false_iff_ne.2 hk] at h
      exact List.mem_cons_of_mem _ (ih h)

theorem names_byLabel {fm : FieldManager} {l : String} {i : Nat} (h : getFieldIdByLabel fm l = .ok i) :
    l ∈ names fm := by
  rw [getFieldIdByLabel] at h
  split at h
  · cases h
  · next hs => exact mem_of_lookup hs

theorem names_run (rs : List Request) (fm : FieldManager) (x : List Nat × FieldManager) (h : run fm rs = .ok x) :
    ∀ l ∈ names x.2, l ∈ names fm ∨ l ∈ rs.map Request.label := by
  induction rs generalizing fm x with
  | nil =>
    cases h
    exact fun l hl => .inl hl
  | cons r rs ih =>
    rw [run] at h
    split at h
    · next id fm' h1 =>
      split at h
      · next ids fm'' h2 =>
        cases h
        intro l hl
        rcases ih fm' _ h2 l hl with a | a
        · rcases names_getFieldId h1 l a with b | b
          · exact .inl b
          · exact .inr (b ▸ List.mem_cons_self ..)
        · exact .inr (List.mem_cons_of_mem _ a)
      · cases h
      · cases h
    · cases h
    · cases h

theorem serve_label {fm fm' : FieldManager} {l : String} (h : Demand.serve fm (.label l) = .ok fm') :
    fm' = fm ∧ l ∈ names fm := by
  rw [Demand.serve] at h
  obtain ⟨i, h1, h2⟩ := Outcome.bind_eq_ok.1 h
  cases h2
  exact ⟨rfl, names_byLabel h1⟩

theorem serve_spec {fm fm' : FieldManager} {r : Request} (h : Demand.serve fm (.spec r) = .ok fm') :
    ∀ l ∈ names fm', l ∈ names fm ∨ l = r.label := by
  rw [Demand.serve] at h
  obtain ⟨x, h1, h2⟩ := Outcome.bind_eq_ok.1 h
  cases h2
  exact names_getFieldId h1

/-- The name of a field that a demand may create. -/
def Demand.creates : Demand → List String
  | .label _ => []
  | .spec r => [r.label]

theorem names_demands (ds : List Demand) (fm fm' : FieldManager) (h : ds.foldlM Demand.serve fm = .ok fm') :
    ∀ l ∈ names fm', l ∈ names fm ∨ l ∈ ds.flatMap Demand.creates := by
  induction ds generalizing fm with
  | nil =>
    cases BC.ok_inj h
    exact fun l hl => .inl hl
  | cons d ds ih =>
    obtain ⟨a, h1, h2⟩ := BC.foldlM_cons_ok.1 h
    intro l hl
    rw [List.flatMap_cons, List.mem_append]
    rcases ih a h2 l hl with hm | hm
    · cases d with
      | label k =>
        rw [(serve_label h1).1] at hm
        exact .inl hm
      | spec r =>
        rcases serve_spec h1 l hm with he | he
        · exact .inl he
        · exact .inr (.inl (by simp [Demand.creates, he]))
    · exact .inr (.inr hm)

theorem demandTable_fields : ∀ e ∈ demandTable, ∀ l ∈ e.2.flatMap Demand.creates, l ∈ classFields := by decide

theorem classDemands_fields (cls : String) : ∀ l ∈ (classDemands cls).flatMap Demand.creates, l ∈ classFields := by
  rw [classDemands]
  split
  · next e he => exact demandTable_fields e (List.mem_of_find?_eq_some he)
  · exact fun l hl => absurd hl (by simp)

variable {Q : Type}

theorem names_registerReduction {fm fm' : FieldManager} {cls : String} {p : Params Q}
    (h : registerReduction fm cls p = .ok fm') :
    p.var ∈ names fm ∧ ∀ l ∈ names fm', l ∈ names fm ∨ l = p.label := by
  have key : ∀ f : FieldManager, (∀ l ∈ names f, l ∈ names fm) → ∀ r : Request, r.label = p.label →
      Demand.serve f (.spec r) = .ok fm' → ∀ l ∈ names fm', l ∈ names fm ∨ l = p.label := by
    intro f hf r hr h l hl
    rcases serve_spec h l hl with a | a
    · exact .inl (hf l a)
    · exact .inr (a.trans hr)
  rw [registerReduction] at h
  split at h
  · obtain ⟨f, h1, h⟩ := Outcome.bind_eq_ok.1 h
    have hf : ∀ l ∈ names f, l ∈ names fm := by
      intro l hl
      rcases names_demands _ _ _ h1 l hl with a | a
      · exact a
      · simp [Demand.creates] at a
    obtain ⟨id, h2, h⟩ := Outcome.bind_eq_ok.1 h
    obtain ⟨s, h3, h⟩ := Outcome.bind_eq_ok.1 h
    refine ⟨hf _ (names_byLabel h2), ?_⟩
    split at h
    · exact key f hf _ rfl h
    · exact key f hf _ rfl h
    · cases h
  · obtain ⟨f, h1, h⟩ := Outcome.bind_eq_ok.1 h
    cases h1
    obtain ⟨id, h2, h⟩ := Outcome.bind_eq_ok.1 h
    obtain ⟨s, h3, h⟩ := Outcome.bind_eq_ok.1 h
    refine ⟨names_byLabel h2, ?_⟩
    split at h
    · exact key _ (fun _ h => h) _ rfl h
    · exact key _ (fun _ h => h) _ rfl h
    · cases h

/-- The label of a reduction. -/
def objectLabel (o : ComputeObject (Params Q)) : Option String :=
  if reduces o.cls = true then o.params.map Params.label else none

theorem names_register {fm fm' : FieldManager} {o : ComputeObject (Params Q)} (h : register fm o = .ok fm') :
    ∀ l ∈ names fm', l ∈ names fm ∨ l ∈ classFields ∨ objectLabel o = some l := by
  rw [register] at h
  intro l hl
  split at h
  · next hr =>
    split at h
    · cases h
    · next p hp =>
      rcases (names_registerReduction h).2 l hl with a | a
      · exact .inl a
      · refine .inr (.inr ?_)
        rw [objectLabel, if_pos hr, hp, a]
        rfl
  · rcases names_demands _ _ _ h l hl with a | a
    · exact .inl a
    · exact .inr (.inl (classDemands_fields _ l a))

theorem table_deps {mat : List String} {a : Assign Q} (ha : a ∈ table mat) :
    ∀ d ∈ a.deps, d ∈ mat ∨ d ∈ analysisFields.map Request.label ∨ d ∈ classFields := by
  have key : ∀ l : List String, (∀ d ∈ l, d ∈ analysisFields.map Request.label ∨ d ∈ classFields) →
      ∀ d ∈ l, d ∈ mat ∨ d ∈ analysisFields.map Request.label ∨ d ∈ classFields := fun l h d hd => .inr (h d hd)
  simp only [table, List.mem_cons, List.not_mem_nil, or_false] at ha
  rcases ha with rfl | rfl | rfl | rfl | rfl | rfl | rfl | rfl | rfl | rfl | rfl | rfl | rfl | rfl
  case inr.inr.inr.inr.inr.inr.inr.inr.inr.inr.inr.inl => exact fun d hd => .inl hd
  all_goals exact key _ (by dsimp only; decide)

theorem targets_fields : ∀ t ∈ targets, t ∈ classFields := by decide

/-- What holds of the assignments `pre` and the registry `fm` after the objects with the labels `L`: every field that
is written or depended on is one of the analysis, of a class or has one of the labels. -/
def Known (base : List String) (pre : List (Assign Q)) (fm : FieldManager) (L : List String) : Prop :=
  (∀ a ∈ pre, (a.target ∈ base ∨ a.target ∈ classFields ∨ a.target ∈ L) ∧
    ∀ d ∈ a.deps, d ∈ base ∨ d ∈ classFields ∨ d ∈ L) ∧
  ∀ l ∈ names fm, l ∈ base ∨ l ∈ classFields ∨ l ∈ L

theorem reduction_objects {mat base : List String} (B : List (ComputeObject (Params Q)))
    (hB : ∀ o ∈ B, reduces o.cls = true ∨ classAssigns (Q := Q) mat o.cls = []) (pre : List (Assign Q))
    (fm fm' : FieldManager) (L : List String) (hk : Known base pre fm L) (hr : B.foldlM register fm = .ok fm')
    (hn : (L ++ B.filterMap objectLabel).Nodup)
    (hnew : ∀ l ∈ B.filterMap objectLabel, l ∉ base ∧ l ∉ classFields) :
    Good pre (B.flatMap (assigns mat)) := by
  induction B generalizing pre fm L with
  | nil => exact trivial
  | cons o B ih =>
    obtain ⟨f, h1, h2⟩ := BC.foldlM_cons_ok.1 hr
    have hB' : ∀ x ∈ B, reduces x.cls = true ∨ classAssigns (Q := Q) mat x.cls = [] :=
      fun x hx => hB x (List.mem_cons_of_mem _ hx)
    rw [List.flatMap_cons, good_append]
    have hnm := names_register h1
    cases hl : objectLabel o with
    | none =>
      have ha : assigns mat o = [] := by
        rw [objectLabel] at hl
        rw [assigns]
        split
        · next hred =>
          rw [if_pos hred] at hl
          rw [Option.map_eq_none_iff.1 hl]
        · next hred =>
          exact (hB o (List.mem_cons_self ..)).resolve_left hred
      rw [ha]
      refine ⟨trivial, ?_⟩
      rw [List.filterMap_cons_none hl] at hn hnew
      refine ih hB' (pre ++ []) f L ⟨by simpa using hk.1, ?_⟩ h2 hn hnew
      intro l hl'
      rcases hnm l hl' with a | a | a
      · exact hk.2 l a
      · exact .inr (.inl a)
      · rw [hl] at a
        cases a
    | some ℓ =>
      rw [List.filterMap_cons_some hl] at hn hnew
      obtain ⟨hred, p, hp, rfl⟩ : reduces o.cls = true ∧ ∃ p, o.params = some p ∧ p.label = ℓ := by
        rw [objectLabel] at hl
        split at hl
        · next hred =>
          obtain ⟨p, a, b⟩ := Option.map_eq_some_iff.1 hl
          exact ⟨hred, p, a, b⟩
        · cases hl
      have ha : assigns mat o = [⟨p.label, [p.var], some (o.cls, p)⟩] := by
        rw [assigns, if_pos hred, hp]
      have hv : p.var ∈ names fm := by
        rw [register, if_pos hred, hp] at h1
        exact (names_registerReduction h1).1
      have hnl := hnew p.label (List.mem_cons_self ..)
      have hL : p.label ∉ L := by
        rw [List.nodup_append] at hn
        intro hm
        exact hn.2.2 _ hm _ (List.mem_cons_self ..) rfl
      have out : ∀ t, (t ∈ base ∨ t ∈ classFields ∨ t ∈ L) → p.label ≠ t := by
        rintro t (h | h | h) rfl
        · exact hnl.1 h
        · exact hnl.2 h
        · exact hL h
      rw [ha]
      constructor
      · refine ⟨.inr ⟨?_, fun a ha' => ⟨out _ (hk.1 a ha').1, fun hd => out _ ((hk.1 a ha').2 _ hd) rfl⟩⟩, trivial⟩
        intro h
        exact out _ (hk.2 _ hv) (List.mem_singleton.1 h)
      · refine ih hB' _ f (L ++ [p.label]) ⟨?_, ?_⟩ h2 (by simpa using hn)
          (fun l hl' => hnew l (List.mem_cons_of_mem _ hl'))
        · intro a ha'
          have widen : ∀ t, (t ∈ base ∨ t ∈ classFields ∨ t ∈ L) → t ∈ base ∨ t ∈ classFields ∨ t ∈ L ++ [p.label] :=
            fun t h => h.imp_right (Or.imp_right (List.mem_append_left _))
          rcases List.mem_append.1 ha' with h | h
          · exact ⟨widen _ (hk.1 a h).1, fun d hd => widen _ ((hk.1 a h).2 d hd)⟩
          · rw [List.mem_singleton.1 h]
            refine ⟨.inr (.inr (List.mem_append_right _ (List.mem_cons_self ..))), ?_⟩
            intro d hd
            rw [List.mem_singleton.1 hd]
            exact widen _ (hk.2 _ hv)
        · intro l hl'
          rcases hnm l hl' with a | a | a
          · rcases hk.2 l a with b | b | b
            · exact .inl b
            · exact .inr (.inl b)
            · exact .inr (.inr (List.mem_append_left _ b))
          · exact .inr (.inl a)
          · rw [hl] at a
            cases a
            exact .inr (.inr (List.mem_append_right _ (List.mem_cons_self ..)))

theorem names_classes {base : List String} (A : List (ComputeObject (Params Q)))
    (hA : ∀ o ∈ A, reduces o.cls = false) (fm fm' : FieldManager) (h : A.foldlM register fm = .ok fm')
    (hb : ∀ l ∈ names fm, l ∈ base ∨ l ∈ classFields) : ∀ l ∈ names fm', l ∈ base ∨ l ∈ classFields := by
  induction A generalizing fm with
  | nil =>
    cases BC.ok_inj h
    exact hb
  | cons o A ih =>
    obtain ⟨f, h1, h2⟩ := BC.foldlM_cons_ok.1 h
    refine ih (fun x hx => hA x (List.mem_cons_of_mem _ hx)) f h2 fun l hl => ?_
    rcases names_register h1 l hl with a | a | a
    · exact hb l a
    · exact .inr a
    · rw [objectLabel, hA o (List.mem_cons_self ..)] at a
      cases a

end Verif.Record
