import Verif.Field.Spec
import Mathlib.Data.List.Basic
import Mathlib.Data.List.Nodup
import Mathlib.Data.List.Induction
import Mathlib.Tactic.Common

/-! Helper lemmas for the registry: the invariant tying the stored data to the list of distinct
requests, and its preservation by each request. -/

namespace Verif.Field

/-- One step of `distinctInOrder`. -/
def addNew (seen : List Request) (r : Request) : List Request :=
  if r ∈ seen then seen else seen ++ [r]

theorem distinctInOrder_eq (rs : List Request) : distinctInOrder rs = rs.foldl addNew [] := rfl

/-- The specification stored for request `r` under id `i`. -/
def toSpec (i : Nat) (r : Request) : FieldSpec :=
  ⟨r.relation, r.length, r.temporal, r.label, i⟩

/-- Registry invariant: the registry stores exactly the requests `ds`. -/
structure Rep (fm : FieldManager) (ds : List Request) : Prop where
  specs : fm.fieldSpecs = ds.mapIdx toSpec
  labels : fm.labelToIdMap = (ds.mapIdx (fun i r => (r.label, i))).reverse
  globals : fm.specIsGlobal = ds.map (fun r => decide (r.relation = Relation.global))
  nodup : ds.Nodup
  apart : ∀ a ∈ ds, ∀ b ∈ ds, SameUpToCase a.label b.label → a = b

theorem rep_empty : Rep FieldManager.empty [] := by
  constructor <;> simp [FieldManager.empty]

theorem exactMatch_toSpec (r q : Request) (i : Nat) :
    exactMatch r (toSpec i q) = true ↔ r = q := by
  cases r; cases q
  simp [exactMatch, toSpec, and_assoc]

theorem similarLabel_toSpec (r q : Request) (i : Nat) :
    similarLabel r (toSpec i q) = true ↔ SameUpToCase r.label q.label := by
  simp [similarLabel, toSpec, SameUpToCase, lowerCase]

theorem find_exact_of_mem {ds : List Request} {r : Request} (h : r ∈ ds) (k : Nat) :
    (ds.mapIdx (fun i q => toSpec (i + k) q)).find? (exactMatch r)
      = some (toSpec (ds.idxOf r + k) r) := by
  induction ds generalizing k with
  | nil => simp at h
  | cons d ds ih =>
    rw [List.mapIdx_cons, List.find?_cons]
    by_cases hd : r = d
    · subst hd
      have : exactMatch r (toSpec (0 + k) r) = true := (exactMatch_toSpec _ _ _).2 rfl
      rw [this]; simp
    · have h1 : exactMatch r (toSpec (0 + k) d) = false := by
        rw [← Bool.not_eq_true, exactMatch_toSpec]; exact hd
      rw [h1]
      have hm : r ∈ ds := by
        rcases List.mem_cons.1 h with h | h
        · exact absurd h hd
        · exact h
      have := ih hm (k + 1)
      have e : (fun i q => toSpec (i + 1 + k) q) = (fun i q => toSpec (i + (k + 1)) q) := by
        funext i q; congr 1; omega
      simp only [e]
      rw [this]
      congr 2
      rw [List.idxOf_cons_ne _ (fun h => hd h.symm)]
      omega

theorem find_exact_none {ds : List Request} {r : Request} (h : r ∉ ds) :
    (ds.mapIdx toSpec).find? (exactMatch r) = none := by
  rw [List.find?_eq_none]
  intro s hs
  rw [List.mem_mapIdx] at hs
  obtain ⟨i, hi, rfl⟩ := hs
  rw [exactMatch_toSpec]
  rintro rfl
  exact h (List.getElem_mem hi)

theorem any_similar {ds : List Request} {r : Request} :
    (ds.mapIdx toSpec).any (similarLabel r) = true ↔ ∃ q ∈ ds, SameUpToCase r.label q.label := by
  rw [List.any_eq_true]
  constructor
  · rintro ⟨s, hs, h⟩
    rw [List.mem_mapIdx] at hs
    obtain ⟨i, hi, rfl⟩ := hs
    exact ⟨ds[i], List.getElem_mem hi, (similarLabel_toSpec _ _ _).1 h⟩
  · rintro ⟨q, hq, h⟩
    obtain ⟨i, hi, rfl⟩ := List.getElem_of_mem hq
    exact ⟨toSpec i ds[i], List.mem_mapIdx.2 ⟨i, hi, rfl⟩, (similarLabel_toSpec _ _ _).2 h⟩

theorem getFieldId_mem {fm : FieldManager} {ds : List Request} (hR : Rep fm ds) {r : Request}
    (h : r ∈ ds) : getFieldId fm r = .ok (ds.idxOf r, fm) := by
  unfold getFieldId
  have := find_exact_of_mem h 0
  simp only [Nat.add_zero] at this
  rw [hR.specs, show (ds.mapIdx toSpec) = ds.mapIdx (fun i q => toSpec i q) from rfl, this]
  rfl

theorem getFieldId_conflict {fm : FieldManager} {ds : List Request} (hR : Rep fm ds) {r : Request}
    (h : r ∉ ds) (hc : ∃ q ∈ ds, SameUpToCase r.label q.label) :
    getFieldId fm r = .fail .terminate := by
  unfold getFieldId
  rw [hR.specs, find_exact_none h]
  simp only [any_similar.2 hc, if_true]

theorem getFieldId_new {fm : FieldManager} {ds : List Request} (hR : Rep fm ds) {r : Request}
    (h : r ∉ ds) (hc : ¬ ∃ q ∈ ds, SameUpToCase r.label q.label) :
    ∃ fm', getFieldId fm r = .ok (ds.length, fm') ∧ Rep fm' (ds ++ [r]) := by
  unfold getFieldId
  rw [hR.specs, find_exact_none h]
  have h2 : ¬ ((ds.mapIdx toSpec).any (similarLabel r) = true) := fun h => hc (any_similar.1 h)
  simp only [h2, List.length_mapIdx]
  refine ⟨_, rfl, ?_⟩
  constructor
  · simp [List.mapIdx_append, toSpec]
  · simp [List.mapIdx_append, hR.labels]
  · simp [hR.globals]
  · rw [List.nodup_append]
    refine ⟨hR.nodup, by simp, ?_⟩
    intro a ha b hb
    simp at hb
    subst hb
    rintro rfl
    exact h ha
  · intro a ha b hb hab
    simp only [List.mem_append, List.mem_singleton] at ha hb
    rcases ha with ha | ha <;> rcases hb with hb | hb
    · exact hR.apart a ha b hb hab
    · subst hb; exact absurd ⟨a, ha, hab.symm⟩ hc
    · subst ha; exact absurd ⟨b, hb, hab⟩ hc
    · subst ha; subst hb; rfl

/-- Decision table of one request. -/
theorem getFieldId_cases {fm : FieldManager} {ds : List Request} (hR : Rep fm ds) (r : Request) :
    (Acceptable ds r ∧ ∃ fm', getFieldId fm r = .ok ((addNew ds r).idxOf r, fm')
        ∧ Rep fm' (addNew ds r)) ∨
    (¬ Acceptable ds r ∧ getFieldId fm r = .fail .terminate) := by
  by_cases h : r ∈ ds
  · left
    refine ⟨Or.inl h, fm, ?_, ?_⟩
    · rw [addNew, if_pos h]; exact getFieldId_mem hR h
    · rw [addNew, if_pos h]; exact hR
  · by_cases hc : ∃ q ∈ ds, SameUpToCase r.label q.label
    · right
      refine ⟨?_, getFieldId_conflict hR h hc⟩
      rintro (h' | h')
      · exact h h'
      · obtain ⟨q, hq, hs⟩ := hc; exact h' q hq hs
    · left
      obtain ⟨fm', h1, h2⟩ := getFieldId_new hR h hc
      refine ⟨Or.inr (fun q hq hs => hc ⟨q, hq, hs⟩), fm', ?_, ?_⟩
      · rw [addNew, if_neg h, h1, List.idxOf_append_of_notMem h]
        simp
      · rw [addNew, if_neg h]; exact h2

theorem mem_addNew {ds : List Request} {r q : Request} : q ∈ addNew ds r ↔ q ∈ ds ∨ q = r := by
  unfold addNew
  split_ifs with h
  · constructor
    · exact Or.inl
    · rintro (h' | rfl) <;> assumption
  · simp

theorem mem_foldl_addNew {rs ds : List Request} {q : Request} :
    q ∈ rs.foldl addNew ds ↔ q ∈ ds ∨ q ∈ rs := by
  induction rs generalizing ds with
  | nil => simp
  | cons r rs ih =>
    rw [List.foldl_cons, ih, mem_addNew, List.mem_cons, or_assoc]

theorem mem_distinctInOrder {rs : List Request} {q : Request} :
    q ∈ distinctInOrder rs ↔ q ∈ rs := by
  rw [distinctInOrder_eq, mem_foldl_addNew]; simp

theorem addNew_prefix (ds : List Request) (r : Request) : ds <+: addNew ds r := by
  unfold addNew; split_ifs
  · exact List.prefix_rfl
  · exact List.prefix_append _ _

theorem foldl_addNew_prefix (rs ds : List Request) : ds <+: rs.foldl addNew ds := by
  induction rs generalizing ds with
  | nil => exact List.prefix_rfl
  | cons r rs ih => exact (addNew_prefix ds r).trans (ih _)

theorem idxOf_prefix {l₁ l₂ : List Request} (h : l₁ <+: l₂) {r : Request} (hr : r ∈ l₁) :
    l₂.idxOf r = l₁.idxOf r := by
  obtain ⟨t, rfl⟩ := h
  exact List.idxOf_append_of_mem hr

theorem acceptable_congr {s t : List Request} (h : ∀ q, q ∈ s ↔ q ∈ t) (r : Request) :
    Acceptable s r ↔ Acceptable t r := by
  unfold Acceptable
  rw [h r]
  constructor <;> rintro (h' | h')
  · exact Or.inl h'
  · exact Or.inr fun q hq => h' q ((h q).2 hq)
  · exact Or.inl h'
  · exact Or.inr fun q hq => h' q ((h q).1 hq)

/-- A whole run from a registry storing `ds`. -/
theorem run_spec {fm : FieldManager} {ds : List Request} (hR : Rep fm ds) (rs : List Request) :
    ((∀ pre r post, rs = pre ++ r :: post → Acceptable (ds ++ pre) r) ∧
      ∃ fm', run fm rs = .ok (rs.map (fun r => (rs.foldl addNew ds).idxOf r), fm')
        ∧ Rep fm' (rs.foldl addNew ds)) ∨
    ((∃ pre r post, rs = pre ++ r :: post ∧ ¬ Acceptable (ds ++ pre) r) ∧
      run fm rs = .fail .terminate) := by
  induction rs generalizing fm ds with
  | nil =>
    left
    refine ⟨?_, fm, rfl, hR⟩
    intro pre r post h
    simp at h
  | cons r rs ih =>
    rcases getFieldId_cases hR r with ⟨ha, fm', hg, hR'⟩ | ⟨hna, hg⟩
    · rcases ih hR' with ⟨hall, fm'', hrun, hR''⟩ | ⟨⟨pre, q, post, he, hq⟩, hrun⟩
      · left
        refine ⟨?_, fm'', ?_, hR''⟩
        · intro pre q post h
          cases pre with
          | nil =>
            simp at h
            obtain ⟨rfl, rfl⟩ := h
            simpa using ha
          | cons p pre =>
            simp at h
            obtain ⟨rfl, h⟩ := h
            have := hall pre q post h
            refine (acceptable_congr ?_ q).1 this
            intro x
            simp [mem_addNew, or_assoc]
        · simp only [run, hg, hrun, List.map_cons, List.foldl_cons]
          congr 3
          exact (idxOf_prefix (foldl_addNew_prefix rs (addNew ds r)) (mem_addNew.2 (Or.inr rfl))).symm
      · right
        refine ⟨⟨r :: pre, q, post, by simp [he], ?_⟩, ?_⟩
        · intro h
          apply hq
          refine (acceptable_congr ?_ q).1 h
          intro x
          simp [mem_addNew, or_assoc]
        · simp only [run, hg, hrun]
    · right
      refine ⟨⟨[], r, rs, by simp, by simpa using hna⟩, ?_⟩
      simp only [run, hg]

theorem run_ok {rs : List Request} {ids : List Nat} {fm : FieldManager}
    (h : run FieldManager.empty rs = .ok (ids, fm)) :
    ids = rs.map (fun r => (distinctInOrder rs).idxOf r) ∧ Rep fm (distinctInOrder rs)
      ∧ AllAcceptable rs := by
  rcases run_spec rep_empty rs with ⟨hall, fm', hrun, hR⟩ | ⟨-, hrun⟩
  · rw [hrun] at h
    cases h
    refine ⟨rfl, hR, ?_⟩
    intro pre r post he
    simpa using hall pre r post he
  · rw [hrun] at h; cases h

theorem lookup_reverse_mapIdx {ds : List Request} (hn : (ds.map Request.label).Nodup)
    (l : String) (i : Nat) :
    (ds.mapIdx (fun i r => (r.label, i))).reverse.lookup l = some i ↔
      ∃ h : i < ds.length, ds[i].label = l := by
  induction ds using List.reverseRecOn with
  | nil => simp
  | append_singleton ds d ih =>
    rw [List.map_append, List.nodup_append] at hn
    obtain ⟨hn1, -, hn2⟩ := hn
    rw [List.mapIdx_append]
    simp only [List.mapIdx_cons, List.mapIdx_nil, List.reverse_append, List.reverse_cons,
      List.reverse_nil, List.nil_append, List.singleton_append, List.lookup_cons]
    by_cases hl : l = d.label
    · subst hl
      simp only [BEq.rfl, Option.some.injEq, Nat.zero_add]
      constructor
      · rintro rfl
        exact ⟨by simp, by simp⟩
      · rintro ⟨h, he⟩
        by_contra hne
        have hlt : i < ds.length := by simp at h; omega
        rw [List.getElem_append_left hlt] at he
        exact hn2 _ (List.mem_map.2 ⟨ds[i], List.getElem_mem hlt, rfl⟩) _ (by simp) he
    · have : (l == d.label) = false := by simpa using hl
      rw [this]
      simp only
      rw [ih hn1]
      constructor
      · rintro ⟨h, he⟩
        exact ⟨by simp; omega, by rw [List.getElem_append_left h]; exact he⟩
      · rintro ⟨h, he⟩
        have hlt : i < ds.length := by
          by_contra hge
          have : i = ds.length := by simp at h; omega
          subst this
          simp at he
          exact hl he.symm
        exact ⟨hlt, by rw [List.getElem_append_left hlt] at he; exact he⟩

theorem labels_nodup {fm : FieldManager} {ds : List Request} (hR : Rep fm ds) :
    (ds.map Request.label).Nodup := by
  refine (List.nodup_map_iff_inj_on hR.nodup).2 ?_
  intro a ha b hb h
  exact hR.apart a ha b hb (by unfold SameUpToCase; rw [h])

end Verif.Field
