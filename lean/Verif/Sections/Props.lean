import Verif.Sections.DeckLemmas
import Verif.Outputs.FieldsProps

/-! # Property C251: the sections of output of the input mean what they say -/

noncomputable section

namespace Verif.Sections

open Verif Verif.Field

/-! ### An input for the examples -/

/-- Four fields: the two the program needs, the displacement and a bond field. -/
def demoFields : List Request :=
  [⟨.element, .scalar, .constant, "Element_Id"⟩, ⟨.element, .scalar, .constant, "Proc_Num"⟩,
   ⟨.node, .vector, .twoStep, "Displacement"⟩, ⟨.bond, .scalar, .twoStep, "Bond_Damage"⟩]

theorem demo_registered : ∃ ids fm, Registered demoFields ids fm := by
  have : ∃ p, Field.run FieldManager.empty demoFields = .ok p := by
    have h : (match Field.run FieldManager.empty demoFields with | .ok _ => true | _ => false) = true := by
      decide +kernel
    cases hr : Field.run FieldManager.empty demoFields with
    | ok p => exact ⟨p, rfl⟩
    | fail f => rw [hr] at h; cases h
    | ub => rw [hr] at h; cases h
  obtain ⟨⟨ids, fm⟩, h⟩ := this
  exact ⟨ids, fm, h, by simp [demoFields], by simp [demoFields]⟩

/-- A section with two variables, every tenth step. -/
def demoSection : Section :=
  [("Output Filename", .text "bar"), ("Output Frequency", .int 10), ("Parallel Write", .flag true),
   ("Output Variables", .list [("Displacement", some true), ("Proc_Num", some true)])]

theorem demo_usable : Usable demoFields demoSection := by
  constructor
  case known => intro n v h; simp [demoSection] at h; rcases h with h | h | h | h <;> (rw [h.1]; decide)
  case frequency => intro v h; simp [demoSection] at h; exact ⟨_, h⟩
  case initial => intro v h; simp [demoSection] at h
  case final => intro v h; simp [demoSection] at h
  case filename => intro v h; simp [demoSection] at h; exact ⟨_, h⟩
  case fileType => intro v h; simp [demoSection] at h
  case format => intro v h; simp [demoSection] at h
  case parallel => intro v h; simp [demoSection] at h; exact ⟨_, h⟩
  case vars =>
    intro v h
    simp [demoSection] at h
    refine ⟨_, h, ?_⟩
    intro n o hno
    simp only [List.mem_cons, Prod.mk.injEq, List.not_mem_nil, or_false] at hno
    rcases hno with ⟨rfl, rfl⟩ | ⟨rfl, rfl⟩
    · exact ⟨⟨true, rfl⟩, ⟨.node, .vector, .twoStep, "Displacement"⟩, by simp [demoFields], rfl, by decide⟩
    · exact ⟨⟨true, rfl⟩, ⟨.element, .scalar, .constant, "Proc_Num"⟩, by simp [demoFields], rfl, by decide⟩

/-- An input with two sections of output and another list. -/
def demoDeck : List (String × Top) :=
  [("Output1", .list demoSection), ("Materials", .list []), ("Output2", .list demoSection)]

theorem demo_proper : Proper demoDeck := by
  intro n s h
  simp only [demoDeck, List.mem_cons, Prod.mk.injEq, Top.list.injEq, List.not_mem_nil, or_false] at h
  rcases h with ⟨-, rfl⟩ | ⟨-, rfl⟩ | ⟨-, rfl⟩ <;> simp [demoSection]

theorem demo_all : AllUsable demoFields demoDeck := by
  have : outputEntries demoDeck = [("Output1", .list demoSection), ("Output2", .list demoSection)] := by
    rfl
  intro e he
  rw [this] at he
  simp only [List.mem_cons, List.not_mem_nil, or_false] at he
  rcases he with rfl | rfl <;> exact ⟨_, rfl, demo_usable⟩

/-! ### C251 -/

/-- **C251.** The input is accepted exactly if every entry whose name contains the word `Output` is a list that can be used:
only known names, values of the right types, files of type ExodusII in binary format, and as variables flags with the
names of registered fields that are not bond data. -/
theorem C251_accepted {rs : List Request} {ids : List Nat} {fm : FieldManager} (h : Registered rs ids fm)
    (np pid : Int) (deck : List (String × Top)) (hd : Proper deck) :
    (∃ ms, openAll fm np pid deck = .ok ms) ↔ AllUsable rs deck := by
  rcases openAll_from h np pid deck hd [] with ⟨A, ms, h1, -⟩ | ⟨A, f, h1⟩
  · exact ⟨fun _ => A, fun _ => ⟨_, h1⟩⟩
  · refine ⟨?_, fun h' => absurd h' A⟩
    rintro ⟨ms, hms⟩
    rw [openAll, h1] at hms
    cases hms

example : ∃ ids fm, Registered demoFields ids fm ∧ Proper demoDeck ∧ AllUsable demoFields demoDeck := by
  obtain ⟨ids, fm, h⟩ := demo_registered
  exact ⟨ids, fm, h, demo_proper, demo_all⟩

/-- Any other input is refused; there is no undefined behaviour. -/
theorem C251_refused {rs : List Request} {ids : List Nat} {fm : FieldManager} (h : Registered rs ids fm)
    (np pid : Int) (deck : List (String × Top)) (hd : Proper deck) (hA : ¬ AllUsable rs deck) :
    ∃ f, openAll fm np pid deck = .fail f := by
  rcases openAll_from h np pid deck hd [] with ⟨A, -⟩ | ⟨-, f, h1⟩
  · exact absurd A hA
  · exact ⟨f, h1⟩

/-- A bond field is asked for. -/
example : ¬ AllUsable demoFields [("Output", .list [("Output Variables", .list [("Bond_Damage", some true)])])] := by
  intro h
  obtain ⟨s, hs, U⟩ := h ("Output", .list [("Output Variables", .list [("Bond_Damage", some true)])])
    (List.mem_filter.2 ⟨by simp, by decide⟩)
  cases hs
  obtain ⟨l, hl, h'⟩ := U.vars (.list [("Bond_Damage", some true)]) (by simp)
  cases hl
  obtain ⟨-, r, hr, h1, h2⟩ := h' "Bond_Damage" (some true) (by simp)
  simp only [demoFields, List.mem_cons, List.not_mem_nil, or_false] at hr
  rcases hr with rfl | rfl | rfl | rfl
  · exact absurd h1 (by decide)
  · exact absurd h1 (by decide)
  · exact absurd h1 (by decide)
  · exact h2 rfl

/-- **C251.** There is one output manager for each section, in the order of the input, and it has the settings of its
section, with the documented defaults for those that are not given, and the number of processors and the rank of the
run, whatever the section says about them. -/
theorem C251_managers {rs : List Request} {ids : List Nat} {fm : FieldManager} (h : Registered rs ids fm)
    (np pid : Int) (deck : List (String × Top)) (hd : Proper deck) {ms : List Manager}
    (hm : openAll fm np pid deck = .ok ms) : List.Forall₂ (Means rs np pid) (sections deck) ms := by
  rcases openAll_from h np pid deck hd [] with ⟨-, ms', h1, h2⟩ | ⟨-, f, h1⟩
  · rw [openAll, h1, List.nil_append] at hm
    rw [← Outcome.ok.inj hm]
    exact h2
  · rw [openAll, h1] at hm
    cases hm

/-- The input of the example gives two managers. -/
example : ∃ ids fm ms, Registered demoFields ids fm ∧ openAll fm 4 2 demoDeck = .ok ms ∧ ms.length = 2 := by
  obtain ⟨ids, fm, h⟩ := demo_registered
  obtain ⟨ms, hms⟩ := (C251_accepted h 4 2 demoDeck demo_proper).2 demo_all
  refine ⟨ids, fm, ms, h, hms, ?_⟩
  rw [← (C251_managers h 4 2 demoDeck demo_proper hms).length_eq]
  rfl

/-- A section of `deck` at position `k` and the manager there. -/
theorem C251_pair {rs : List Request} {ids : List Nat} {fm : FieldManager} (h : Registered rs ids fm)
    (np pid : Int) (deck : List (String × Top)) (hd : Proper deck) {ms : List Manager}
    (hm : openAll fm np pid deck = .ok ms) {k : Nat} {s : Section} {m : Manager} (hs : (sections deck)[k]? = some s)
    (hk : ms[k]? = some m) : Means rs np pid s m := by
  have := C251_managers h np pid deck hd hm
  obtain ⟨h1, h2⟩ := List.getElem?_eq_some_iff.1 hs
  obtain ⟨h3, h4⟩ := List.getElem?_eq_some_iff.1 hk
  have := this.get h1 h3
  simp only [List.get_eq_getElem] at this
  rwa [h2, h4] at this

example : (sections demoDeck)[1]? = some demoSection := rfl

/-- **C251.** Each file gets the records its own section asks for, at its own frequency and between its own steps,
whatever the other sections say: the container hands every call to all managers.  (As C101 says, the first step
written is the one before the initial output step.) -/
theorem C251_records {rs : List Request} {ids : List Nat} {fm : FieldManager} (h : Registered rs ids fm)
    (np pid : Int) (deck : List (String × Top)) (hd : Proper deck) {ms : List Manager}
    (hm : openAll fm np pid deck = .ok ms)
    (hj : ∀ m ∈ ms, m.schedule.last < Explicit.intMax) {ts : List ℝ} (hts : (ts.length : Int) ≤ Explicit.intMax) :
    ∃ out, containerWrites (ms.map Manager.schedule) ts = .ok out ∧ out.length = (sections deck).length ∧
      ∀ (k : Nat) (s : Section) (r : Outputs.Manager × Recs), (sections deck)[k]? = some s → out[k]? = some r →
        ∃ f i j, Setting s "Output Frequency" .int (-1) f ∧ Setting s "Initial Output Step" .int 1 i ∧
          Setting s "Final Output Step" .int 2147483646 j ∧ Outputs.Records (Outputs.Requested f (i - 1) j) ts r.2 := by
  have hF := C251_managers h np pid deck hd hm
  have one : ∀ s m, Means rs np pid s m → m.schedule.last < Explicit.intMax → ∃ o, m.schedule.writes ts = .ok o ∧
      Outputs.Records (Outputs.Requested m.schedule.frequency (m.schedule.first - 1) m.schedule.last) ts o.2 := by
    intro s m M hl
    obtain ⟨M', recs, h1, h2⟩ := Outputs.C101_steps (f := m.schedule.frequency) (i := m.schedule.first) hl hts
    refine ⟨(M', recs), ?_, h2⟩
    have : Outputs.Manager.create (some (some m.schedule.frequency, some m.schedule.first, some m.schedule.last)) =
        m.schedule := by
      have e1 := M.writes
      have e2 := M.count
      have e3 := M.records
      revert e1 e2 e3
      generalize m.schedule = x
      obtain ⟨a, b, c, d, e, g⟩ := x
      dsimp only
      rintro rfl rfl rfl
      rfl
    rw [← this]
    exact h1
  have key : ∃ out, List.Forall₂ (fun m o => m.writes ts = .ok o) (ms.map Manager.schedule) out ∧
      List.Forall₂ (fun s (r : Outputs.Manager × Recs) => ∃ f i j, Setting s "Output Frequency" .int (-1) f ∧
        Setting s "Initial Output Step" .int 1 i ∧ Setting s "Final Output Step" .int 2147483646 j ∧
        Outputs.Records (Outputs.Requested f (i - 1) j) ts r.2) (sections deck) out := by
    clear hm
    revert hF hj
    generalize sections deck = ss
    intro hj hF
    induction hF with
    | nil => exact ⟨[], .nil, .nil⟩
    | cons M _ ih =>
      obtain ⟨out, a, b⟩ := ih fun m hmm => hj m (List.mem_cons_of_mem _ hmm)
      obtain ⟨o, ho, hr⟩ := one _ _ M (hj _ List.mem_cons_self)
      exact ⟨o :: out, .cons ho a, .cons ⟨_, _, _, M.frequency, M.initial, M.final, hr⟩ b⟩
  obtain ⟨out, a, b⟩ := key
  refine ⟨out, containerWrites_ok ts _ out a, b.length_eq.symm, ?_⟩
  intro k s r hs hr
  obtain ⟨h1, h2⟩ := List.getElem?_eq_some_iff.1 hs
  obtain ⟨h3, h4⟩ := List.getElem?_eq_some_iff.1 hr
  have := b.get h1 h3
  simp only [List.get_eq_getElem] at this
  rwa [h2, h4] at this

/-- Of the section of the example, steps 0, 10, 20, ... are written. -/
example (f : Int) (h : Setting demoSection "Output Frequency" .int (-1) f) : f = 10 :=
  h.1 10 (by simp [demoSection])

/-- **C251.** A section that gives no frequency writes no record at all. -/
theorem C251_silent {rs : List Request} {ids : List Nat} {fm : FieldManager} (h : Registered rs ids fm)
    (np pid : Int) (deck : List (String × Top)) (hd : Proper deck) {ms : List Manager}
    (hm : openAll fm np pid deck = .ok ms) (hj : ∀ m ∈ ms, m.schedule.last < Explicit.intMax) {ts : List ℝ}
    (hts : (ts.length : Int) ≤ Explicit.intMax) {k : Nat} {s : Section} (hs : (sections deck)[k]? = some s)
    (hf : ∀ w, ("Output Frequency", w) ∉ s) {out : List (Outputs.Manager × Recs)}
    (ho : containerWrites (ms.map Manager.schedule) ts = .ok out) :
    ∃ r, out[k]? = some r ∧ r.2 = [] := by
  obtain ⟨out', h1, h2, h3⟩ := C251_records h np pid deck hd hm hj hts
  rw [ho] at h1
  obtain rfl := Outcome.ok.inj h1
  have hk := (List.getElem?_eq_some_iff.1 hs).1
  have hr : out[k]? = some out[k] := List.getElem?_eq_getElem (h2.symm ▸ hk)
  refine ⟨_, hr, ?_⟩
  obtain ⟨f, i, j, hf', -, -, hrec⟩ := h3 k s _ hs hr
  have : f = -1 := hf'.2 hf
  have key : ∀ P : Nat → Prop, (∀ x, ¬ P x) → ∀ recs, Outputs.Records P ts recs → recs = [] := by
    intro P hP recs hrec
    unfold Outputs.Records at hrec
    simpa [hP] using hrec
  refine key _ (fun x hx => ?_) _ hrec
  have := hx.1
  omega

/-- A section without a frequency can be used. -/
example : Usable demoFields [] ∧ ∀ w, ("Output Frequency", w) ∉ ([] : Section) := by
  refine ⟨?_, by simp⟩
  constructor <;> intro <;> simp

/-- What the code reads as `Bond Family`, the list of the bonds of all points: the input can ask for it. -/
def BondFamilyPossible : Prop :=
  ∃ (rs : List Request) (ids : List Nat) (fm : FieldManager) (np pid : Int) (deck : List (String × Top)) (ms : List Manager),
    Registered rs ids fm ∧ Proper deck ∧ openAll fm np pid deck = .ok ms ∧ ∃ m ∈ ms, m.neighborlist = true

/-- **C251.** It cannot: a section that mentions it is refused, on one processor too, and no manager has it. -/
theorem C251_bond_family : ¬ BondFamilyPossible ∧
    ∀ {rs : List Request} {ids : List Nat} {fm : FieldManager}, Registered rs ids fm →
      ∀ (np pid : Int) (deck : List (String × Top)), Proper deck → ∀ s ∈ sections deck, ∀ v, ("Bond Family", v) ∈ s →
        ∃ f, openAll fm np pid deck = .fail f := by
  constructor
  · rintro ⟨rs, ids, fm, np, pid, deck, ms, h, hd, hm, m, hmm, hn⟩
    have hF := C251_managers h np pid deck hd hm
    obtain ⟨k, hk, rfl⟩ := List.getElem_of_mem hmm
    have M := hF.get (hF.length_eq.symm ▸ hk) hk
    have := M.neighborlist
    simp only [List.get_eq_getElem] at this
    rw [this] at hn
    cases hn
  · intro rs ids fm h np pid deck hd s hs v hv
    refine C251_refused h np pid deck hd fun hA => ?_
    obtain ⟨e, he, hes⟩ := List.mem_filterMap.1 hs
    obtain ⟨s', hs', U⟩ := hA e he
    obtain ⟨n, top⟩ := e
    dsimp only at hs' hes
    subst hs'
    cases hes
    exact absurd (U.known _ v hv) (by decide)

example : ("Bond Family", Entry.flag true) ∈ ([("Bond Family", .flag true)] : Section) := by simp

/-- The formats that the validation offers, `ASCII` and `BINARY`, can be used. -/
def FormatsUsable : Prop :=
  ∀ (rs : List Request) (ids : List Nat) (fm : FieldManager), Registered rs ids fm → ∀ f ∈ ["ASCII", "BINARY"],
    ∃ m, openSection fm 1 0 [("Output Format", .text f)] = .ok m

/-- **C251.** Only one of them can. -/
theorem C251_ascii : ¬ FormatsUsable := by
  intro hF
  obtain ⟨ids, fm, h⟩ := demo_registered
  obtain ⟨m, hm⟩ := hF demoFields ids fm h "ASCII" (by simp)
  rcases openSection_cases h 1 0 (s := [("Output Format", .text "ASCII")]) (by simp) with ⟨U, -⟩ | ⟨-, f, hf⟩
  · have := U.format (.text "ASCII") (by simp)
    exact absurd this (by decide)
  · rw [hf] at hm
    cases hm

/-- **C251.** Entries of the input whose names do not contain the word with a capital letter are no sections of output:
they are passed over without a message. -/
theorem C251_other_entries (fm : FieldManager) (np pid : Int) (deck : List (String × Top)) :
    openAll fm np pid deck = openAll fm np pid (outputEntries deck) := by
  unfold openAll
  generalize ([] : List Manager) = acc
  induction deck generalizing acc with
  | nil => rfl
  | cons e deck ih =>
    by_cases hn : "Output".toList <:+: e.1.toList
    · have : outputEntries (e :: deck) = e :: outputEntries deck := by
        rw [outputEntries, List.filter_cons, if_pos (decide_eq_true hn)]
        rfl
      rw [this, List.foldlM_cons, List.foldlM_cons]
      cases openEntry fm np pid acc e with
      | ok a =>
        simp only [Outcome.ok_bind]
        exact ih a
      | fail f => rfl
      | ub => rfl
    · have : outputEntries (e :: deck) = outputEntries deck := by
        rw [outputEntries, List.filter_cons, if_neg (fun h' => hn (of_decide_eq_true h'))]
        rfl
      have hstep : openEntry fm np pid acc e = .ok acc := by
        have hc : ¬ Setup.contains "Output" e.1 = true := fun h' => hn (of_decide_eq_true h')
        rw [openEntry, if_neg hc]
      rw [this, List.foldlM_cons, hstep]
      simp only [Outcome.ok_bind]
      exact ih acc

/-- A section whose name is written with a small letter. -/
example : outputEntries [("output", .list demoSection)] = [] := rfl

/-- Sections that do not agree on what is written have different files. -/
def FilesApart : Prop :=
  ∀ (rs : List Request) (ids : List Nat) (fm : FieldManager) (np pid : Nat) (deck : List (String × Top)) (ms : List Manager),
    Registered rs ids fm → Proper deck → openAll fm np pid deck = .ok ms →
      (ms.map fun m => Exodus.fileName m.globalOnly m.base.toList np pid).Nodup

/-- **C251.** They have not: sections without a file name all have the file `dump.e`. -/
theorem C251_same_file : ¬ FilesApart := by
  intro hF
  obtain ⟨ids, fm, h⟩ := demo_registered
  have hd : Proper [("Output1", .list []), ("Output2", .list [])] := by
    intro n s hs
    simp only [List.mem_cons, Prod.mk.injEq, Top.list.injEq, List.not_mem_nil, or_false] at hs
    rcases hs with ⟨-, rfl⟩ | ⟨-, rfl⟩ <;> simp
  have hsec : sections [("Output1", .list []), ("Output2", .list [])] = [[], []] := rfl
  have hA : AllUsable demoFields [("Output1", .list []), ("Output2", .list [])] := by
    intro e he
    have he' := List.mem_of_mem_filter he
    have U : Usable demoFields [] := by constructor <;> intro <;> simp
    simp only [List.mem_cons, List.not_mem_nil, or_false] at he'
    rcases he' with rfl | rfl <;> exact ⟨_, rfl, U⟩
  obtain ⟨ms, hms⟩ := (C251_accepted h 1 0 _ hd).2 hA
  have hM := C251_managers h 1 0 _ hd hms
  rw [hsec] at hM
  have hN := hF demoFields ids fm 1 0 _ ms h hd hms
  cases hM with
  | cons M1 hM =>
    cases hM with
    | cons M2 hM =>
      cases hM
      rename_i m1 m2
      have b1 : m1.base = "dump" := M1.base.2 (by simp)
      have b2 : m2.base = "dump" := M2.base.2 (by simp)
      have v1 : m1.vars = [] := M1.none (by simp)
      have v2 : m2.vars = [] := M2.none (by simp)
      have g1 : m1.globalOnly = true := M1.globalOnly.2 (by simp [v1])
      have g2 : m2.globalOnly = true := M2.globalOnly.2 (by simp [v2])
      simp [b1, b2, g1, g2] at hN

end Verif.Sections
