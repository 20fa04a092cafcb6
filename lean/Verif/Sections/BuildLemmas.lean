import Verif.Sections.Lemmas

/-! # Lemmas on the construction of an output manager -/

noncomputable section

namespace Verif.Sections

open Verif Verif.Field

/-! ### Reading -/

theorem getInt_ok {t : Section} (hn : (t.map Prod.fst).Nodup) {n : String}
    (h : ∀ v, (n, v) ∈ t → ∃ i, v = .int i) :
    ∃ o, t.getInt n = .ok o ∧ (∀ i, (n, .int i) ∈ t → o = some i) ∧ ((∀ w, (n, w) ∉ t) → o = none) := by
  cases hl : t.lookup n with
  | none =>
    have hno := (lookup_none_iff _ _).1 hl
    exact ⟨none, by rw [Section.getInt, hl], fun i hi => absurd hi (hno _), fun _ => rfl⟩
  | some v =>
    have hv := (lookup_iff hn _ _).1 hl
    obtain ⟨i, rfl⟩ := h v hv
    refine ⟨some i, by rw [Section.getInt, hl], fun j hj => ?_, fun hno => absurd hv (hno _)⟩
    have := (lookup_iff hn _ _).2 hj
    rw [hl] at this
    exact congrArg some (Entry.int.inj (Option.some.inj this))

theorem getText_ok {t : Section} (hn : (t.map Prod.fst).Nodup) {n : String} (d : String)
    (h : ∀ v, (n, v) ∈ t → ∃ x, v = .text x) :
    ∃ o, t.getText n d = .ok o ∧ (∀ x, (n, .text x) ∈ t → o = x) ∧ ((∀ w, (n, w) ∉ t) → o = d) := by
  cases hl : t.lookup n with
  | none =>
    have hno := (lookup_none_iff _ _).1 hl
    exact ⟨d, by rw [Section.getText, hl], fun i hi => absurd hi (hno _), fun _ => rfl⟩
  | some v =>
    have hv := (lookup_iff hn _ _).1 hl
    obtain ⟨i, rfl⟩ := h v hv
    refine ⟨i, by rw [Section.getText, hl], fun j hj => ?_, fun hno => absurd hv (hno _)⟩
    have := (lookup_iff hn _ _).2 hj
    rw [hl] at this
    exact Entry.text.inj (Option.some.inj this)

theorem getFlag_absent {t : Section} {n : String} (d : Bool) (h : ∀ w, (n, w) ∉ t) : t.getFlag n d = .ok d := by
  rw [Section.getFlag, (lookup_none_iff _ _).2 h]

theorem variableList_ok {t : Section} (hn : (t.map Prod.fst).Nodup)
    (h : ∀ v, ("Output Variables", v) ∈ t → ∃ l, v = .list l) :
    ∃ l', t.variableList = .ok l' ∧
      (∀ l, ("Output Variables", .list l) ∈ t → l' = l.map fun v => (v.1, v.2.getD false)) ∧
      ((∀ w, ("Output Variables", w) ∉ t) → l' = []) := by
  cases hl : t.lookup "Output Variables" with
  | none =>
    have hno := (lookup_none_iff _ _).1 hl
    exact ⟨[], by rw [Section.variableList, hl], fun i hi => absurd hi (hno _), fun _ => rfl⟩
  | some v =>
    have hv := (lookup_iff hn _ _).1 hl
    obtain ⟨i, rfl⟩ := h v hv
    refine ⟨_, by rw [Section.variableList, hl], fun j hj => ?_, fun hno => absurd hv (hno _)⟩
    have := (lookup_iff hn _ _).2 hj
    rw [hl] at this
    rw [Entry.list.inj (Option.some.inj this)]

/-! ### Validation -/

theorem valid_int {names : List String} {n : String} (hn : validEntries.lookup n = some .int) (v : Entry) :
    entryValid names (n, v) = true ↔ ∃ i, v = .int i := by
  unfold entryValid
  dsimp only
  rw [hn]
  cases v <;> simp

theorem valid_text {names : List String} {n : String} (hn : validEntries.lookup n = some .text) (v : Entry) :
    entryValid names (n, v) = true ↔ ∃ i, v = .text i := by
  unfold entryValid
  dsimp only
  rw [hn]
  cases v <;> simp

theorem valid_flag {names : List String} {n : String} (hn : validEntries.lookup n = some .flag) (v : Entry) :
    entryValid names (n, v) = true ↔ ∃ i, v = .flag i := by
  unfold entryValid
  dsimp only
  rw [hn]
  cases v <;> simp

theorem valid_choice {names : List String} {n : String} {c : List String}
    (hn : validEntries.lookup n = some (.choice c)) (v : Entry) :
    entryValid names (n, v) = true ↔ ∃ i, v = .text i ∧ i ∈ c := by
  unfold entryValid
  dsimp only
  rw [hn]
  cases v <;> simp

theorem valid_list {names : List String} {n : String} (hn : validEntries.lookup n = some .list) (v : Entry) :
    entryValid names (n, v) = true ↔
      ∃ l, v = .list l ∧ ∀ m o, (m, o) ∈ l → (∃ b, o = some b) ∧ m ∈ names := by
  unfold entryValid
  dsimp only
  rw [hn]
  cases v with
  | list l =>
    simp only [List.all_eq_true, Bool.and_eq_true, decide_eq_true_eq, Entry.list.injEq, exists_eq_left',
      Option.isSome_iff_exists]
    constructor
    · intro h m o hm
      exact ⟨(h _ hm).2, (h _ hm).1⟩
    · rintro h ⟨m, o⟩ hm
      exact ⟨(h m o hm).2, (h m o hm).1⟩
  | int _ => simp
  | number => simp
  | text _ => simp
  | flag _ => simp

section
variable {rs : List Request} {ids : List Nat} {fm : FieldManager}

/-- What validation finds out about a section. -/
structure Validated (rs : List Request) (s : Section) : Prop where
  known : ∀ n v, (n, v) ∈ s → n ∈ knownNames
  frequency : ∀ v, ("Output Frequency", v) ∈ s → ∃ i, v = .int i
  initial : ∀ v, ("Initial Output Step", v) ∈ s → ∃ i, v = .int i
  final : ∀ v, ("Final Output Step", v) ∈ s → ∃ i, v = .int i
  filename : ∀ v, ("Output Filename", v) ∈ s → ∃ t, v = .text t
  format : ∀ v, ("Output Format", v) ∈ s → ∃ t, v = .text t
  parallel : ∀ v, ("Parallel Write", v) ∈ s → ∃ b, v = .flag b
  vars : ∀ v, ("Output Variables", v) ∈ s → ∃ l, v = .list l ∧
    ∀ n o, (n, o) ∈ l → (∃ b, o = some b) ∧ ∃ r ∈ rs, r.label = n ∧ r.relation ≠ .bond

theorem validated_of_valid {names : List String}
    (hnames : ∀ n, n ∈ names ↔ ∃ r ∈ rs, r.label = n ∧ r.relation ≠ .bond) {np pid : Int} {s t : Section}
    (P : Prepared np pid s t) (h : t.all (entryValid names) = true) : Validated rs s := by
  rw [List.all_eq_true] at h
  have key : ∀ n v, n ≠ "NumProc" → n ≠ "MyPID" → n ≠ "Output File Type" → (n, v) ∈ s →
      entryValid names (n, v) = true := fun n v h1 h2 h3 hm => h _ ((P.rest n v h1 h2 h3).2 hm)
  refine ⟨?_, ?_, ?_, ?_, ?_, ?_, ?_, ?_⟩
  · intro n v hm
    by_cases h1 : n = "NumProc"
    · subst h1; decide
    by_cases h2 : n = "MyPID"
    · subst h2; decide
    by_cases h3 : n = "Output File Type"
    · subst h3; decide
    exact entryValid_of_known (key n v h1 h2 h3 hm)
  · intro v hm
    exact (valid_int rfl v).1 (key _ v (by decide) (by decide) (by decide) hm)
  · intro v hm
    exact (valid_int rfl v).1 (key _ v (by decide) (by decide) (by decide) hm)
  · intro v hm
    exact (valid_int rfl v).1 (key _ v (by decide) (by decide) (by decide) hm)
  · intro v hm
    exact (valid_text rfl v).1 (key _ v (by decide) (by decide) (by decide) hm)
  · intro v hm
    obtain ⟨i, hi, -⟩ := (valid_choice rfl v).1 (key _ v (by decide) (by decide) (by decide) hm)
    exact ⟨i, hi⟩
  · intro v hm
    exact (valid_flag rfl v).1 (key _ v (by decide) (by decide) (by decide) hm)
  · intro v hm
    obtain ⟨l, hl, h'⟩ := (valid_list rfl v).1 (key _ v (by decide) (by decide) (by decide) hm)
    exact ⟨l, hl, fun n o hno => ⟨(h' n o hno).1, (hnames n).1 (h' n o hno).2⟩⟩

theorem valid_of_usable {names : List String}
    (hnames : ∀ n, n ∈ names ↔ ∃ r ∈ rs, r.label = n ∧ r.relation ≠ .bond) {np pid : Int} {s t : Section}
    (P : Prepared np pid s t) (U : Usable rs s) : t.all (entryValid names) = true := by
  rw [List.all_eq_true]
  rintro ⟨n, v⟩ hm
  by_cases h1 : n = "NumProc"
  · subst h1
    exact (valid_int rfl v).2 ⟨np, (P.numProc v).1 hm⟩
  by_cases h2 : n = "MyPID"
  · subst h2
    exact (valid_int rfl v).2 ⟨pid, (P.rank v).1 hm⟩
  by_cases h3 : n = "Output File Type"
  · subst h3
    exact (valid_text rfl v).2 ⟨_, (P.fileType v).1 hm⟩
  have hs := (P.rest n v h1 h2 h3).1 hm
  have hk := U.known n v hs
  simp only [knownNames, List.mem_cons, List.not_mem_nil, or_false] at hk
  rcases hk with rfl | rfl | rfl | rfl | rfl | rfl | rfl | rfl | rfl | rfl
  · exact absurd rfl h2
  · exact absurd rfl h1
  · exact absurd rfl h3
  · exact (valid_text rfl v).2 (U.filename v hs)
  · exact (valid_int rfl v).2 (U.initial v hs)
  · exact (valid_int rfl v).2 (U.final v hs)
  · exact (valid_choice rfl v).2 ⟨"BINARY", U.format v hs, by decide⟩
  · exact (valid_int rfl v).2 (U.frequency v hs)
  · exact (valid_flag rfl v).2 (U.parallel v hs)
  · obtain ⟨l, hl, h'⟩ := U.vars v hs
    exact (valid_list rfl v).2 ⟨l, hl, fun m o hmo => ⟨(h' m o hmo).1, (hnames m).2 (h' m o hmo).2⟩⟩

/-- A section with a file of the right type: it gives the manager it describes, or is refused. -/
theorem construct_cases (h : Registered rs ids fm) {np pid : Int} {s t : Section} (P : Prepared np pid s t)
    (hT : ∀ v, ("Output File Type", v) ∈ s → v = .text "ExodusII") :
    (Usable rs s ∧ ∃ m, construct fm t = .ok m ∧ Means rs np pid s m) ∨
    (¬ Usable rs s ∧ construct fm t = .fail .invalidArgument) := by
  obtain ⟨names, hv, hnames⟩ := validVariables_ok h
  by_cases hall : t.all (entryValid names) = true
  swap
  · right
    refine ⟨fun U => hall (valid_of_usable hnames P U), ?_⟩
    rw [construct, hv]
    simp only [Outcome.ok_bind]
    rw [if_pos (by simpa using hall)]
  have V := validated_of_valid hnames P hall
  have rest : ∀ n v, n ≠ "NumProc" → n ≠ "MyPID" → n ≠ "Output File Type" → ((n, v) ∈ t ↔ (n, v) ∈ s) := P.rest
  obtain ⟨o1, e1, p1, -⟩ := getInt_ok P.nodup (n := "NumProc") fun v hm => ⟨np, (P.numProc v).1 hm⟩
  obtain ⟨o2, e2, p2, -⟩ := getInt_ok P.nodup (n := "MyPID") fun v hm => ⟨pid, (P.rank v).1 hm⟩
  obtain rfl := p1 np ((P.numProc _).2 rfl)
  obtain rfl := p2 pid ((P.rank _).2 rfl)
  obtain ⟨o3, e3, p3, q3⟩ := getInt_ok P.nodup (n := "Output Frequency") fun v hm =>
    V.frequency v ((rest _ v (by decide) (by decide) (by decide)).1 hm)
  obtain ⟨o4, e4, p4, q4⟩ := getText_ok P.nodup (n := "Output Format") "BINARY" fun v hm =>
    V.format v ((rest _ v (by decide) (by decide) (by decide)).1 hm)
  obtain ⟨o5, e5, p5, q5⟩ := getText_ok P.nodup (n := "Output Filename") "dump" fun v hm =>
    V.filename v ((rest _ v (by decide) (by decide) (by decide)).1 hm)
  obtain ⟨o6, e6, p6, q6⟩ := getInt_ok P.nodup (n := "Initial Output Step") fun v hm =>
    V.initial v ((rest _ v (by decide) (by decide) (by decide)).1 hm)
  obtain ⟨o7, e7, p7, q7⟩ := getInt_ok P.nodup (n := "Final Output Step") fun v hm =>
    V.final v ((rest _ v (by decide) (by decide) (by decide)).1 hm)
  obtain ⟨l, e8, p8, q8⟩ := variableList_ok P.nodup fun v hm =>
    (V.vars v ((rest _ v (by decide) (by decide) (by decide)).1 hm)).imp fun _ h' => h'.1
  have e9 : t.getFlag "Bond Family" false = .ok false := by
    refine getFlag_absent _ fun w hw => ?_
    exact absurd (V.known _ w ((rest _ w (by decide) (by decide) (by decide)).1 hw)) (by decide)
  have hreq : ∀ n b, (n, b) ∈ l → ∃ r ∈ rs, r.label = n := by
    intro n b hnb
    by_cases hex : ∃ w, ("Output Variables", w) ∈ t
    · obtain ⟨w, hw⟩ := hex
      obtain ⟨l0, rfl, hl0⟩ := V.vars w ((rest _ w (by decide) (by decide) (by decide)).1 hw)
      rw [p8 l0 hw] at hnb
      obtain ⟨⟨m, o⟩, hmo, he⟩ := List.mem_map.1 hnb
      obtain ⟨-, r, hr, hrl, -⟩ := hl0 m o hmo
      exact ⟨r, hr, hrl.trans (congrArg Prod.fst he)⟩
    · rw [q8 fun w hw => hex ⟨w, hw⟩] at hnb
      cases hnb
  obtain ⟨vars, e10, hnm, hsp⟩ := requested_ok h l hreq
  have comp : construct fm t = if o4 ≠ "BINARY" then .fail .invalidArgument else
      .ok ⟨np, pid, Outputs.Manager.create (some (o3, o6, o7)), false, o5, vars, Exodus.globalDataOnly vars⟩ := by
    rw [construct, hv]
    simp only [Outcome.ok_bind]
    rw [if_neg (by rw [hall]; decide), e1]
    simp only [Outcome.ok_bind]
    rw [e2]
    simp only [Outcome.ok_bind]
    rw [e3]
    simp only [Outcome.ok_bind]
    rw [e4]
    simp only [Outcome.ok_bind]
    by_cases ho : o4 ≠ "BINARY"
    · rw [if_pos ho, if_pos ho]
    rw [if_neg ho, if_neg ho, e9]
    simp only [Outcome.ok_bind]
    rw [if_neg (by simp), e5]
    simp only [Outcome.ok_bind]
    rw [e6]
    simp only [Outcome.ok_bind]
    rw [e7]
    simp only [Outcome.ok_bind]
    rw [e8]
    simp only [Outcome.ok_bind]
    rw [e10]
    rfl
  have sets : ∀ {α : Type} (n : String) (form : α → Entry), n ≠ "NumProc" → n ≠ "MyPID" → n ≠ "Output File Type" →
      ∀ (d x : α), (∀ v, (n, form v) ∈ t → x = v) → ((∀ w, (n, w) ∉ t) → x = d) → Setting s n form d x := by
    intro α n form h1 h2 h3 d x ha hb
    exact ⟨fun v hv => ha v ((rest n _ h1 h2 h3).2 hv), fun hno => hb fun w hw => hno w ((rest n _ h1 h2 h3).1 hw)⟩
  by_cases ho : o4 = "BINARY"
  · left
    refine ⟨⟨V.known, V.frequency, V.initial, V.final, V.filename, hT, ?_, V.parallel, V.vars⟩, _,
      by rw [comp, if_neg (not_not.2 ho)], ?_⟩
    · intro v hm
      obtain ⟨x, rfl⟩ := V.format v hm
      rw [← ho, p4 x ((rest _ _ (by decide) (by decide) (by decide)).2 hm)]
    · refine ⟨rfl, rfl, rfl, rfl, rfl, ?_, ?_, ?_, ?_, rfl, ?_, ?_, hsp, ?_⟩
      · refine sets _ _ (by decide) (by decide) (by decide) _ _ (fun v hm => ?_) fun hno => ?_
        · rw [p3 v hm]; rfl
        · rw [q3 hno]; rfl
      · refine sets _ _ (by decide) (by decide) (by decide) _ _ (fun v hm => ?_) fun hno => ?_
        · rw [p6 v hm]; rfl
        · rw [q6 hno]; rfl
      · refine sets _ _ (by decide) (by decide) (by decide) _ _ (fun v hm => ?_) fun hno => ?_
        · rw [p7 v hm]; rfl
        · rw [q7 hno]; rfl
      · exact sets _ _ (by decide) (by decide) (by decide) _ _ p5 q5
      · intro l0 hl0
        rw [hnm, p8 l0 ((rest _ _ (by decide) (by decide) (by decide)).2 hl0), List.map_map]
        rfl
      · intro hno
        have hl := q8 fun w hw => hno w ((rest _ _ (by decide) (by decide) (by decide)).1 hw)
        rw [hl] at hnm
        exact List.map_eq_nil_iff.1 hnm
      · simp [Exodus.globalDataOnly]
  · right
    refine ⟨fun U => ?_, by rw [comp, if_pos ho]⟩
    by_cases hex : ∃ w, ("Output Format", w) ∈ t
    · obtain ⟨w, hw⟩ := hex
      have := U.format w ((rest _ _ (by decide) (by decide) (by decide)).1 hw)
      subst this
      exact ho (p4 _ hw)
    · exact ho (q4 fun w hw => hex ⟨w, hw⟩)

/-- One section. -/
theorem openSection_cases (h : Registered rs ids fm) (np pid : Int) {s : Section} (hs : (s.map Prod.fst).Nodup) :
    (Usable rs s ∧ ∃ m, openSection fm np pid s = .ok m ∧ Means rs np pid s m) ∨
    (¬ Usable rs s ∧ ∃ f, openSection fm np pid s = .fail f) := by
  rcases fileType_cases hs np pid with ⟨t, ht, P, hT⟩ | ⟨⟨v, hv, hne⟩, ⟨x, t, ht, hx⟩ | ht⟩
  · have : openSection fm np pid s = construct fm t := by
      rw [openSection]
      show ((ranked np pid s).fileType >>= _) = _
      rw [ht]
      simp only [Outcome.ok_bind]
      rw [if_neg (by simp)]
    rw [this]
    rcases construct_cases h P hT with h' | ⟨h1, h2⟩
    · exact Or.inl h'
    · exact Or.inr ⟨h1, _, h2⟩
  · right
    refine ⟨fun U => hne (U.fileType v hv), .invalidArgument, ?_⟩
    rw [openSection]
    show ((ranked np pid s).fileType >>= _) = _
    rw [ht]
    simp only [Outcome.ok_bind]
    rw [if_pos hx]
  · right
    refine ⟨fun U => hne (U.fileType v hv), .runtimeError, ?_⟩
    rw [openSection]
    show ((ranked np pid s).fileType >>= _) = _
    rw [ht]
    rfl

end

end Verif.Sections
