import Verif.Deck.ValueLemmas

/-!
# Lemmas on the loop over the section
-/

noncomputable section

namespace Verif.Deck

open Verif

theorem called_iff {s : Text} {w : String} : Called s w ↔ w.toList = tidy s := by
  constructor
  · rintro (h | ⟨n, rfl, h⟩)
    · exact (tidy_of_named h).symm
    · rw [h, tidy_blank]
      · simp
      · rintro ⟨c, hc, hne⟩
        exact hne (List.eq_of_mem_replicate hc)
  · intro h
    by_cases hs : ∃ c ∈ s, c ≠ ' '
    · left
      have := named_of_mem hs
      rw [← h] at this
      simpa using this
    · right
      have e : s = List.replicate s.length ' ' :=
        List.eq_replicate_iff.mpr ⟨rfl, fun c hc => by_contra fun hne => hs ⟨c, hc, hne⟩⟩
      exact ⟨s.length, e, by rw [h, tidy_blank hs]⟩

theorem getText_ok {v : Option Scalar} {s : Text} : getText v = .ok s ↔ v = some (.text s) := by
  cases v with
  | none => simp [getText]
  | some v => cases v <;> simp [getText]

theorem readType_ok {l : Sublist} {t : BC.BCType} :
    readType l = .ok (some t) ↔ ∃ s, l.type = some (.text s) ∧ Named s (typeWord t) := by
  rw [readType, Outcome.bind_eq_ok]
  simp only [getText_ok, lookUp_type]

theorem readType_none {l : Sublist} :
    readType l = .ok none ↔ ∃ s, l.type = some (.text s) ∧ Named s "NO_SUCH_BOUNDARY_CONDITION_TYPE" := by
  rw [readType, Outcome.bind_eq_ok]
  simp only [getText_ok, lookUp_noType]

theorem readCoordinate_ok {l : Sublist} {k : Fin 3} :
    readCoordinate l = .ok (some k) ↔
      (l.coordinate = none ∧ k = 0 ∨ ∃ s, l.coordinate = some (.text s) ∧ Named s (axisWord k)) := by
  unfold readCoordinate
  cases h : l.coordinate with
  | none =>
    simp [eq_comm]
  | some v =>
    simp only [Outcome.bind_eq_ok, getText_ok, lookUp_coordinate]
    simp

theorem prefixed_of {s a b : Text} (h : s = a ++ "value".toList ++ b) : prefixed s = s := by
  rw [prefixed, if_pos ⟨a, b, h.symm⟩]

theorem prefixed_not {s : Text} (h : ∀ a b, s ≠ a ++ "value".toList ++ b) : prefixed s = "value = ".toList ++ s := by
  rw [prefixed, if_neg]
  rintro ⟨a, b, h'⟩
  exact h a b h'.symm

theorem means_iff {R : Reader} {v : Option Scalar} {f : ℝ → ℝ → ℝ → ℝ → Option ℝ} :
    Means R v f ↔ ∃ b, readValue v = .ok b ∧ f = R.compile b := by
  constructor
  · rintro (⟨s, a, b, rfl, h, hf⟩ | ⟨s, rfl, h, hf⟩ | ⟨r, q, rfl, h, hf⟩)
    · refine ⟨.text s, ?_, hf⟩
      simp [readValue, getText, prefixed_of h]
    · refine ⟨.text ("value = ".toList ++ s), ?_, hf⟩
      rw [readValue]
      · simp only [getText, Outcome.ok_bind]
        rw [prefixed_not h]
      · simp
    · refine ⟨.number q, ?_, hf⟩
      rw [six_unique h]; rfl
  · rintro ⟨b, h, hf⟩
    cases v with
    | none => simp [readValue, getText] at h
    | some v =>
      cases v with
      | other => simp [readValue, getText] at h
      | number r =>
        have := Outcome.ok.inj h
        exact Or.inr (Or.inr ⟨r, printed r, rfl, printed_six r, by rw [hf, ← this]⟩)
      | text s =>
        have := Outcome.ok.inj h
        subst this
        by_cases hv : ∃ a b, s = a ++ "value".toList ++ b
        · obtain ⟨a, b, hv⟩ := hv
          exact Or.inl ⟨s, a, b, rfl, hv, by rw [hf, prefixed_of hv]⟩
        · have hv' : ∀ a b, s ≠ a ++ "value".toList ++ b := fun a b h => hv ⟨a, b, h⟩
          exact Or.inr (Or.inl ⟨s, rfl, hv', by rw [hf, prefixed_not hv']⟩)

theorem describes_iff {R : Reader} {l : Sublist} {d : BC.Definition} :
    Describes R l d ↔ readType l = .ok (some d.type) ∧ readSublist R d.type l = .ok d := by
  unfold Describes readSublist
  rw [means_iff, ← readType_ok, ← readCoordinate_ok]
  refine and_congr_right fun _ => ?_
  simp only [Outcome.bind_eq_ok, getText_ok]
  constructor
  · rintro ⟨⟨s, hs, hc⟩, hk, b, hb, hf⟩
    refine ⟨s, hs, some d.coord, hk, b, hb, ?_⟩
    have hn : String.ofList (tidy s) = d.nodeSet := by rw [← called_iff.mp hc]; simp
    obtain ⟨t, n, k, v⟩ := d
    simp only at hn hf
    simp [hn, hf]
  · rintro ⟨s, hs, k, hk, b, hb, h⟩
    cases k with
    | none => exfalso; revert h; simp only; split <;> simp
    | some k =>
      have := Outcome.ok.inj h
      refine ⟨⟨s, hs, called_iff.mpr ?_⟩, ?_, b, hb, ?_⟩
      · rw [← this]; simp
      · rw [hk, ← this]
      · rw [← this]

theorem readSublist_type {R : Reader} {t : BC.BCType} {l : Sublist} {d : BC.Definition}
    (h : readSublist R t l = .ok d) : d.type = t := by
  unfold readSublist at h
  simp only [Outcome.bind_eq_ok] at h
  obtain ⟨s, -, k, -, b, -, h⟩ := h
  cases k with
  | none => exfalso; revert h; simp only; split <;> simp
  | some k => have := Outcome.ok.inj h; rw [← this]

/-- One pass of the loop. -/
theorem addEntry_ok {R : Reader} {sets : BC.NodeSets} {cs cs' : BC.Conditions} {n : Text} {e : Entry} :
    addEntry R sets cs (n, e) = .ok cs' ↔
      (NamesSet n ∧ cs = cs') ∨
      (¬ NamesSet n ∧ ∃ l, e = .list l ∧
        ((∃ s, l.type = some (.text s) ∧ Named s "NO_SUCH_BOUNDARY_CONDITION_TYPE") ∧ cs = cs' ∨
        ∃ d, Describes R l d ∧ BC.addDefinition cs d = .ok cs' ∧
          (d.type = .thermalFlux → sets d.nodeSet ≠ none))) := by
  unfold addEntry
  by_cases hn : NamesSet n
  · rw [if_pos ((isSetName_iff n).mpr hn)]
    simp [hn]
  · rw [if_neg (fun h => hn ((isSetName_iff n).mp h))]
    cases e with
    | scalar v => simp [hn]
    | list l =>
      simp only [Outcome.bind_eq_ok]
      constructor
      · rintro ⟨t, ht, h⟩
        refine Or.inr ⟨hn, l, rfl, ?_⟩
        cases t with
        | none => exact Or.inl ⟨readType_none.mp ht, Outcome.ok.inj h⟩
        | some t =>
          simp only [Outcome.bind_eq_ok] at h
          obtain ⟨d, hd, cs1, hcs, h⟩ := h
          have ety := readSublist_type hd
          subst ety
          split at h
          · simp at h
          · rename_i hf
            have := Outcome.ok.inj h
            subst this
            exact Or.inr ⟨d, describes_iff.mpr ⟨ht, hd⟩, hcs, fun h1 h2 => hf ⟨h1, h2⟩⟩
      · rintro (⟨h, -⟩ | ⟨-, l', hl, h⟩)
        · exact absurd h hn
        · cases hl
          rcases h with ⟨h, rfl⟩ | ⟨d, hd, hcs, hf⟩
          · exact ⟨none, readType_none.mpr h, rfl⟩
          · obtain ⟨h1, h2⟩ := describes_iff.mp hd
            refine ⟨some d.type, h1, ?_⟩
            simp only [Outcome.bind_eq_ok]
            exact ⟨d, h2, cs', hcs, by rw [if_neg fun h => hf h.1 h.2]⟩

/-- The loop. -/
theorem entries_ok {R : Reader} {sets : BC.NodeSets} {es : List (Text × Entry)} : ∀ {cs cs' : BC.Conditions},
    es.foldlM (addEntry R sets) cs = .ok cs' ↔
      ∃ ds, Reads R es ds ∧ ds.foldlM BC.addDefinition cs = .ok cs' ∧
        ∀ d ∈ ds, d.type = .thermalFlux → sets d.nodeSet ≠ none := by
  induction es with
  | nil =>
    intro cs cs'
    constructor
    · intro h
      exact ⟨[], .nil, h, by simp⟩
    · rintro ⟨ds, h, h', -⟩
      cases h
      exact h'
  | cons e es ih =>
    intro cs cs'
    obtain ⟨n, e⟩ := e
    rw [BC.foldlM_cons_ok]
    constructor
    · rintro ⟨c1, h1, h2⟩
      obtain ⟨ds, hd, hf, hs⟩ := ih.mp h2
      rcases addEntry_ok.mp h1 with ⟨hn, rfl⟩ | ⟨hn, l, rfl, ⟨⟨s, hs1, hs2⟩, rfl⟩ | ⟨d, hdd, hadd, hfl⟩⟩
      · exact ⟨ds, .set hn hd, hf, hs⟩
      · exact ⟨ds, .void hn hs1 hs2 hd, hf, hs⟩
      · refine ⟨d :: ds, .condition hn hdd hd, BC.foldlM_cons_ok.mpr ⟨c1, hadd, hf⟩, ?_⟩
        intro d' hd'
        rcases List.mem_cons.mp hd' with rfl | hd'
        · exact hfl
        · exact hs d' hd'
    · rintro ⟨ds, hr, hf, hs⟩
      cases hr with
      | set hn hr => exact ⟨cs, addEntry_ok.mpr (Or.inl ⟨hn, rfl⟩), ih.mpr ⟨ds, hr, hf, hs⟩⟩
      | void hn h1 h2 hr =>
        exact ⟨cs, addEntry_ok.mpr (Or.inr ⟨hn, _, rfl, Or.inl ⟨⟨_, h1, h2⟩, rfl⟩⟩), ih.mpr ⟨ds, hr, hf, hs⟩⟩
      | condition hn hd hr =>
        obtain ⟨c1, h1, h2⟩ := BC.foldlM_cons_ok.mp hf
        exact ⟨c1, addEntry_ok.mpr (Or.inr ⟨hn, _, rfl, Or.inr ⟨_, hd, h1, hs _ (by simp)⟩⟩),
          ih.mpr ⟨_, hr, h2, fun d hd => hs d (by simp [hd])⟩⟩

/-- What a definition adds, and when it is refused. -/
theorem addDefinition_iff {cs cs' : BC.Conditions} {d : BC.Definition} :
    BC.addDefinition cs d = .ok cs' ↔ (OfScalar d.type → d.coord = 0) ∧
      cs' = ⟨cs.initial ++ initialOf d, cs.boundary ++ BC.boundaryOf d, cs.force ++ BC.forceOf d⟩ := by
  obtain ⟨t, n, k, v⟩ := d
  by_cases hk : k = 0
  · subst hk
    cases t <;>
      simp [BC.addDefinition, BC.construct, initialOf, BC.boundaryOf, BC.forceOf, BC.obj, OfScalar, eq_comm]
  · cases t <;>
      simp [BC.addDefinition, BC.construct, BC.dim, initialOf, BC.boundaryOf, BC.forceOf, BC.obj, OfScalar, hk, eq_comm]

theorem definitions_iff {ds : List BC.Definition} : ∀ {cs cs' : BC.Conditions},
    ds.foldlM BC.addDefinition cs = .ok cs' ↔ (∀ d ∈ ds, OfScalar d.type → d.coord = 0) ∧
      cs' = ⟨cs.initial ++ ds.flatMap initialOf, cs.boundary ++ ds.flatMap BC.boundaryOf,
        cs.force ++ ds.flatMap BC.forceOf⟩ := by
  induction ds with
  | nil =>
    intro cs cs'
    rw [BC.foldlM_nil]
    constructor
    · intro h; rw [← Outcome.ok.inj h]; simp
    · rintro ⟨-, rfl⟩; simp
  | cons d ds ih =>
    intro cs cs'
    rw [BC.foldlM_cons_ok]
    simp only [addDefinition_iff, ih, List.mem_cons, forall_eq_or_imp, List.flatMap_cons]
    constructor
    · rintro ⟨c1, ⟨h1, rfl⟩, h2, rfl⟩
      exact ⟨⟨h1, h2⟩, by simp [List.append_assoc]⟩
    · rintro ⟨⟨h1, h2⟩, rfl⟩
      exact ⟨_, ⟨h1, rfl⟩, h2, by simp [List.append_assoc]⟩

/-! ### Node sets -/

theorem addSet_ok {R : Reader} {sets sets' : BC.NodeSets} {n : Text} {e : Entry} :
    addSet R sets (n, e) = .ok sets' ↔
      (¬ NamesSet n ∧ sets = sets') ∨
      (NamesSet n ∧ ∃ w s l, e = .scalar (.text s) ∧ Named n w ∧ readNodes R s = .ok l ∧
        BC.addNodeSet sets w l = .ok sets') := by
  unfold addSet
  by_cases hn : NamesSet n
  · rw [if_pos ((isSetName_iff n).mpr hn)]
    have hw : ∀ w, Named n w → String.ofList (tidy n) = w := fun w h => by rw [tidy_of_named h]; simp
    obtain ⟨w, -, -, hw1, -⟩ := id hn
    dsimp only
    rw [hw w hw1]
    constructor
    · intro h
      refine Or.inr ⟨hn, w, ?_⟩
      split at h
      · simp at h
      · simp only [Outcome.bind_eq_ok] at h
        obtain ⟨s, hs, l, hl, h⟩ := h
        refine ⟨s, l, ?_, hw1, hl, h⟩
        cases e with
        | list _ => simp [Entry.getText] at hs
        | scalar v =>
          have := getText_ok.mp hs
          simpa using this
    · rintro (⟨h, -⟩ | ⟨-, w', s, l, rfl, h1, h2, h3⟩)
      · exact absurd hn h
      · have : w' = w := named_unique h1 hw1
        subst this
        split
        · rename_i h4
          rw [BC.addNodeSet, h4] at h3
          simp at h3
        · simp only [Entry.getText, Deck.getText, Outcome.ok_bind, Outcome.bind_eq_ok]
          exact ⟨l, h2, h3⟩
  · rw [if_neg (fun h => hn ((isSetName_iff n).mp h))]
    simp [hn]

theorem addNodeSets_cons {sets sets' : BC.NodeSets} {w : String} {l : List Nat} {ls : List (String × List Nat)} :
    BC.addNodeSets sets ((w, l) :: ls) = .ok sets' ↔
      ∃ s, BC.addNodeSet sets w l = .ok s ∧ BC.addNodeSets s ls = .ok sets' := by
  rw [BC.addNodeSets, Outcome.bind_eq_ok]

theorem addNodeSets_append {ls ls' : List (String × List Nat)} : ∀ {sets sets' : BC.NodeSets},
    BC.addNodeSets sets (ls ++ ls') = .ok sets' ↔
      ∃ s, BC.addNodeSets sets ls = .ok s ∧ BC.addNodeSets s ls' = .ok sets' := by
  induction ls with
  | nil => intro sets sets'; simp [BC.addNodeSets]
  | cons x ls ih =>
    intro sets sets'
    obtain ⟨w, l⟩ := x
    rw [List.cons_append, addNodeSets_cons]
    simp only [addNodeSets_cons, ih]
    constructor
    · rintro ⟨a, h1, b, h2, h3⟩; exact ⟨b, ⟨a, h1, h2⟩, h3⟩
    · rintro ⟨b, ⟨a, h1, h2⟩, h3⟩; exact ⟨a, h1, b, h2, h3⟩

theorem inputSets_ok {R : Reader} {es : List (Text × Entry)} : ∀ {sets sets' : BC.NodeSets},
    es.foldlM (addSet R) sets = .ok sets' ↔ ∃ ls, ReadsSets R es ls ∧ BC.addNodeSets sets ls = .ok sets' := by
  induction es with
  | nil =>
    intro sets sets'
    constructor
    · intro h; exact ⟨[], .nil, h⟩
    · rintro ⟨ls, h, h'⟩; cases h; exact h'
  | cons e es ih =>
    intro sets sets'
    obtain ⟨n, e⟩ := e
    rw [BC.foldlM_cons_ok]
    constructor
    · rintro ⟨s1, h1, h2⟩
      obtain ⟨ls, hr, ha⟩ := ih.mp h2
      rcases addSet_ok.mp h1 with ⟨hn, rfl⟩ | ⟨hn, w, s, l, rfl, hw, hl, hadd⟩
      · exact ⟨ls, .other hn hr, ha⟩
      · exact ⟨(w, l) :: ls, .set hw hn hl hr, addNodeSets_cons.mpr ⟨s1, hadd, ha⟩⟩
    · rintro ⟨ls, hr, ha⟩
      cases hr with
      | other hn hr => exact ⟨sets, addSet_ok.mpr (Or.inl ⟨hn, rfl⟩), ih.mpr ⟨ls, hr, ha⟩⟩
      | set hw hn hl hr =>
        obtain ⟨s1, h1, h2⟩ := addNodeSets_cons.mp ha
        exact ⟨s1, addSet_ok.mpr (Or.inr ⟨hn, _, _, _, rfl, hw, hl, h1⟩), ih.mpr ⟨_, hr, h2⟩⟩

theorem meshSets_ok {mesh : List (Text × List Nat)} : ∀ {sets : BC.NodeSets},
    mesh.foldlM addMeshSet sets =
      BC.addNodeSets sets (mesh.map fun e => (String.ofList (tidy e.1), e.2)) := by
  induction mesh with
  | nil => intro sets; rfl
  | cons e mesh ih =>
    intro sets
    rw [List.foldlM_cons, List.map_cons, BC.addNodeSets]
    simp only [addMeshSet, ih]

end Verif.Deck
