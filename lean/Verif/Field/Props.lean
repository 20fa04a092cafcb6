import Verif.Field.Lemmas

/-! # Properties C01 and C02 -/

namespace Verif.Field

/-- **C01.** For every sequence of registration requests that the registry accepts: one id is
returned per request; equal requests got equal ids and different requests different ids; the id of
a request is its position in the list of distinct requests in order of first appearance (hence the
ids in use are exactly `0 .. n-1`); and looking an id up yields the specification that was
registered under it. -/
theorem C01_field_ids (rs : List Request) (ids : List Nat) (fm : FieldManager)
    (h : run FieldManager.empty rs = .ok (ids, fm)) :
    ids.length = rs.length ∧
    (∀ (i j : Nat) (hi : i < rs.length) (hj : j < rs.length) (hi' : i < ids.length)
        (hj' : j < ids.length), ids[i] = ids[j] ↔ rs[i] = rs[j]) ∧
    (∀ (i : Nat) (hi : i < rs.length) (hi' : i < ids.length),
        ids[i] < (distinctInOrder rs).length ∧ (distinctInOrder rs)[ids[i]]? = some rs[i]) ∧
    (∀ k, k ∈ ids ↔ k < (distinctInOrder rs).length) ∧
    (∀ (i : Nat) (hi : i < rs.length) (hi' : i < ids.length),
        getFieldSpec fm ids[i]
          = .ok ⟨rs[i].relation, rs[i].length, rs[i].temporal, rs[i].label, ids[i]⟩) ∧
    (∀ k, (distinctInOrder rs).length ≤ k → getFieldSpec fm k = .fail .terminate) := by
  obtain ⟨rfl, hR, -⟩ := run_ok h
  have hmem : ∀ (i : Nat) (hi : i < rs.length), rs[i] ∈ distinctInOrder rs := fun i hi =>
    mem_distinctInOrder.2 (List.getElem_mem hi)
  have hidx : ∀ (i : Nat) (hi : i < rs.length),
      (distinctInOrder rs)[(distinctInOrder rs).idxOf rs[i]]? = some rs[i] := by
    intro i hi
    rw [List.getElem?_eq_getElem (List.idxOf_lt_length_iff.2 (hmem i hi)), List.getElem_idxOf]
  refine ⟨by simp, ?_, ?_, ?_, ?_, ?_⟩
  · intro i j hi hj hi' hj'
    simp only [List.getElem_map]
    constructor
    · intro he
      have a := hidx i hi
      rw [he, hidx j hj] at a
      exact (Option.some.inj a).symm
    · intro he; rw [he]
  · intro i hi hi'
    simp only [List.getElem_map]
    exact ⟨List.idxOf_lt_length_iff.2 (hmem i hi), hidx i hi⟩
  · intro k
    rw [List.mem_map]
    constructor
    · rintro ⟨r, hr, rfl⟩
      exact List.idxOf_lt_length_iff.2 (mem_distinctInOrder.2 hr)
    · intro hk
      refine ⟨(distinctInOrder rs)[k], mem_distinctInOrder.1 (List.getElem_mem hk), ?_⟩
      exact List.Nodup.idxOf_getElem hR.nodup k hk
  · intro i hi hi'
    simp only [List.getElem_map]
    have hlt := List.idxOf_lt_length_iff.2 (hmem i hi)
    unfold getFieldSpec
    rw [dif_neg (by rw [hR.specs]; simpa using hlt)]
    have : fm.fieldSpecs[(distinctInOrder rs).idxOf rs[i]]? =
        some (toSpec ((distinctInOrder rs).idxOf rs[i]) rs[i]) := by
      rw [hR.specs, List.getElem?_mapIdx, hidx i hi]; rfl
    rw [List.getElem?_eq_some_iff] at this
    obtain ⟨_, he⟩ := this
    rw [he]; rfl
  · intro k hk
    unfold getFieldSpec
    rw [dif_pos (by rw [hR.specs]; simpa using hk)]

/-- A sequence with a repetition that the registry accepts. -/
def demoRequests : List Request :=
  [⟨.node, .vector, .twoStep, "Displacement"⟩, ⟨.element, .scalar, .constant, "Volume"⟩,
   ⟨.node, .vector, .twoStep, "Displacement"⟩, ⟨.global, .scalar, .twoStep, "Energy"⟩]

example : ∃ fm, run FieldManager.empty demoRequests = .ok ([0, 1, 0, 2], fm) :=
  ⟨_, rfl⟩

/-- **C02, acceptance.** A sequence of requests is accepted exactly when every request either
repeats an earlier one or has a label that no earlier request has, not even up to case; otherwise
the program is terminated and no id is handed out for the offending request. -/
theorem C02_accepted_iff (rs : List Request) :
    ((∃ ids fm, run FieldManager.empty rs = .ok (ids, fm)) ↔ AllAcceptable rs) ∧
    (¬ AllAcceptable rs → run FieldManager.empty rs = .fail .terminate) := by
  rcases run_spec rep_empty rs with ⟨hall, fm', hrun, hR⟩ | ⟨⟨pre, r, post, he, hn⟩, hrun⟩
  · have : AllAcceptable rs := fun pre r post he => by simpa using hall pre r post he
    exact ⟨⟨fun _ => this, fun _ => ⟨_, _, hrun⟩⟩, fun h => absurd this h⟩
  · have : ¬ AllAcceptable rs := fun h => hn (by simpa using h pre r post he)
    refine ⟨⟨?_, fun h => absurd h this⟩, fun _ => hrun⟩
    rintro ⟨ids, fm, h⟩
    rw [hrun] at h; cases h

example : AllAcceptable demoRequests := by
  apply (C02_accepted_iff demoRequests).1.1
  exact ⟨_, _, rfl⟩

example : ¬ AllAcceptable (demoRequests ++ [⟨.node, .scalar, .constant, "volume"⟩]) := by
  intro h
  obtain ⟨ids, fm, h⟩ := (C02_accepted_iff _).1.2 h
  have : run FieldManager.empty (demoRequests ++ [⟨.node, .scalar, .constant, "volume"⟩])
      = .fail .terminate := by decide
  rw [this] at h; cases h

/-- **C02, one label one specification.** After any accepted sequence, no two different registered
requests have labels equal up to case, look-up by label succeeds exactly for the registered labels,
and returns the id that the registration returned. -/
theorem C02_labels (rs : List Request) (ids : List Nat) (fm : FieldManager)
    (h : run FieldManager.empty rs = .ok (ids, fm)) :
    (∀ a ∈ rs, ∀ b ∈ rs, SameUpToCase a.label b.label → a = b) ∧
    (∀ l, hasField fm l = true ↔ ∃ r ∈ rs, r.label = l) ∧
    (∀ l, (¬ ∃ r ∈ rs, r.label = l) → getFieldIdByLabel fm l = .fail .terminate) ∧
    (∀ (i : Nat) (hi : i < rs.length) (hi' : i < ids.length),
        getFieldIdByLabel fm rs[i].label = .ok ids[i] ∧
        getFieldSpecByLabel fm rs[i].label
          = .ok ⟨rs[i].relation, rs[i].length, rs[i].temporal, rs[i].label, ids[i]⟩ ∧
        isGlobalSpec fm ids[i] = .ok (decide (rs[i].relation = Relation.global))) := by
  have hC := C01_field_ids rs ids fm h
  obtain ⟨hids, hR, -⟩ := run_ok h
  have hn := labels_nodup hR
  have key : ∀ l i, fm.labelToIdMap.lookup l = some i ↔
      ∃ h : i < (distinctInOrder rs).length, (distinctInOrder rs)[i].label = l := by
    intro l i; rw [hR.labels]; exact lookup_reverse_mapIdx hn l i
  have hnone : ∀ l, (¬ ∃ r ∈ rs, r.label = l) → fm.labelToIdMap.lookup l = none := by
    intro l hl
    cases hx : fm.labelToIdMap.lookup l with
    | none => rfl
    | some i =>
      obtain ⟨hi, he⟩ := (key l i).1 hx
      exact absurd ⟨_, mem_distinctInOrder.1 (List.getElem_mem hi), he⟩ hl
  have hsome : ∀ (i : Nat) (hi : i < rs.length) (hi' : i < ids.length),
      fm.labelToIdMap.lookup rs[i].label = some ids[i] := by
    intro i hi hi'
    obtain ⟨hlt, hge⟩ := hC.2.2.1 i hi hi'
    rw [key]
    rw [List.getElem?_eq_some_iff] at hge
    obtain ⟨_, hge⟩ := hge
    exact ⟨hlt, by rw [hge]⟩
  refine ⟨?_, ?_, ?_, ?_⟩
  · intro a ha b hb hab
    exact hR.apart a (mem_distinctInOrder.2 ha) b (mem_distinctInOrder.2 hb) hab
  · intro l
    constructor
    · intro hf
      by_contra hl
      unfold hasField at hf
      rw [hnone l hl] at hf
      cases hf
    · rintro ⟨r, hr, rfl⟩
      obtain ⟨i, hi, rfl⟩ := List.getElem_of_mem hr
      unfold hasField
      rw [hsome i hi (by rw [hC.1]; exact hi)]
  · intro l hl
    unfold getFieldIdByLabel
    rw [hnone l hl]
  · intro i hi hi'
    have h1 : getFieldIdByLabel fm rs[i].label = .ok ids[i] := by
      unfold getFieldIdByLabel
      rw [hsome i hi hi']
    refine ⟨h1, ?_, ?_⟩
    · unfold getFieldSpecByLabel
      rw [h1, Outcome.ok_bind]
      exact hC.2.2.2.2.1 i hi hi'
    · obtain ⟨hlt, hge⟩ := hC.2.2.1 i hi hi'
      unfold isGlobalSpec
      rw [hR.globals, List.getElem?_map, hge]
      rfl

example : ∃ fm, run FieldManager.empty demoRequests = .ok ([0, 1, 0, 2], fm) ∧
    hasField fm "Volume" = true ∧ hasField fm "volume" = false := ⟨_, rfl, by decide, by decide⟩

end Verif.Field
