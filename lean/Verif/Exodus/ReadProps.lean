import Verif.Exodus.Demo

/-! # Values are read back from the output file -/

namespace Verif.Exodus

open Verif Verif.Field Verif.Mech

theorem not_globalDataOnly {vars : List Var} {v : Var} (hv : v ∈ vars)
    (hr : v.spec.relation ≠ .global) : globalDataOnly vars = false := by
  rw [Bool.eq_false_iff]
  intro hg
  exact hr (globalDataOnly_iff.mp hg v hv)

/-- C184. Whatever was written in the whole run: at step `i + 1` of the file the time is the one
of the call number `i`, and component `c` of a nodal variable, looked up under its name and under
the identifier of a point, is the value the field had at that point at that call. -/
theorem nodal_variable_reads_back {S : Site} {vars : List Var} {steps : List (ℝ × List Blk)}
    {h : Header} {r : Records} (hsp : SpecialScalars S vars)
    (hnames : (kindNames .node vars).Nodup)
    (e : session S vars steps = .ok (some (h, r)))
    {i : Nat} {t : ℝ} {blocks : List Blk} (hi : steps[i]? = some (t, blocks))
    (hids : (allIds blocks).Nodup) {v : Var} (hv : v ∈ vars) (hr : v.spec.relation = .node)
    {c : Nat} (hc : c < (endings v.spec.length).length) {b : Blk} (hb : b ∈ blocks) {j : Nat}
    (hj : j < b.gids.length) :
    r.time (i + 1) = some t ∧ (fieldValue b v c j).isSome ∧
    readNode h r (i + 1) (v.name ++ (endings v.spec.length)[c]) b.gids[j] = fieldValue b v c j := by
  obtain ⟨b0, N, r1, r2, _, hinit, hst, _, ht, hno, _, _⟩ := session_step hsp e hi
  have hgo := not_globalDataOnly hv (by rw [hr]; simp)
  rw [if_neg (by simp [hgo])] at hinit
  obtain ⟨hall, _, hN, _⟩ := names_of_init hinit
  rw [addAll_empty _ hnames] at hN
  obtain ⟨_, _, _, _, _, _, _, _, htab, _, _, _, _, _, hmap, _⟩ := initializeDatabase_ok hinit
  have htime := (writeStep_frame hsp hst).1
  unfold writeStep at hst
  rw [Outcome.bind_eq_ok] at hst
  obtain ⟨w, hw, hst⟩ := hst
  cases hst
  obtain ⟨pre, post, rfl⟩ := List.append_of_mem hv
  obtain ⟨hle, vals, hvals, hold⟩ := writeVars_node hsp hw hnames hN hr (hall v hv) hids c hc
  obtain ⟨l, y, hl, hy, hvy⟩ := hold b hb j hj
  rw [hN] at htab hle hvals
  obtain ⟨_, k, hk, hk1⟩ := name_position hnames htab
    (component_mem hv hr (List.getElem_mem hc)) hle
  refine ⟨by rw [ht, htime], by rw [hy]; rfl, ?_⟩
  unfold readNode
  rw [hk, hmap, node_position hl, hno]
  rw [hk1] at hvals
  simp only [Option.bind_eq_bind, Option.bind_some]
  rw [hvals, hy]
  exact hvy

/-- The second component of the displacement of point 7 at the second step of the example. -/
example : ∃ h r, session Demo.site Demo.vars Demo.steps = .ok (some (h, r)) ∧
    r.time 2 = some 2 ∧ readNode h r 2 "DisplacementY" 7 = some (10 * 2 + (3 * 1 + 1 : Nat)) := by
  obtain ⟨h, r, e⟩ := Demo.good
  refine ⟨h, r, e, ?_⟩
  have := nodal_variable_reads_back Demo.goodRequest.1 (Demo.goodRequest.2.2 _).1 e (i := 1) rfl
    (by simp [Demo.blocks, Demo.first, Demo.second, allIds]) (v := Demo.displacement)
    (by simp [Demo.vars]) rfl (c := 1) (by simp [Demo.displacement, endings]) (b := Demo.second 2)
    (by simp [Demo.blocks]) (j := 1) (by simp [Demo.second])
  refine ⟨this.1, ?_⟩
  refine this.2.2.trans ?_
  simp [fieldValue, Demo.displacement, Demo.second, stepOf, endings]
  norm_num

/-- C185. Component `c` of an element variable, looked up under its name and the identifier of a
point, is the value of the field at that point at that call; for `Element_Id` it is the identifier
counted from 1 and for `Proc_Num` the rank.  A block without the field has no values. -/
theorem element_variable_reads_back {S : Site} {vars : List Var} {steps : List (ℝ × List Blk)}
    {h : Header} {r : Records} (hsp : SpecialScalars S vars)
    (hnames : (kindNames .element vars).Nodup)
    (e : session S vars steps = .ok (some (h, r)))
    {i : Nat} {t t0 : ℝ} {blocks b0 : List Blk} (hi : steps[i]? = some (t, blocks))
    (h0 : steps[0]? = some (t0, b0)) (hsame : SameBlocks blocks b0)
    (hproper : Proper blocks) {v : Var} (hv : v ∈ vars) (hr : v.spec.relation = .element)
    {c : Nat} (hc : c < (endings v.spec.length).length) {b : Blk} (hb : b ∈ blocks) {j : Nat}
    (hj : j < b.gids.length) :
    readElem h r (i + 1) (v.name ++ (endings v.spec.length)[c]) b.gids[j] = elementValue S b v c j := by
  obtain ⟨b0', N, r1, r2, ⟨t0', rest, hst0⟩, hinit, hst, hnone, _, _, hel, _⟩ := session_step hsp e hi
  have hb0 : b0' = b0 := by
    rw [hst0] at h0
    simp at h0
    exact h0.2
  subst hb0
  have hgo := not_globalDataOnly hv (by rw [hr]; simp)
  rw [if_neg (by simp [hgo])] at hinit
  obtain ⟨hall, _, _, hN⟩ := names_of_init hinit
  rw [addAll_empty _ hnames] at hN
  obtain ⟨_, _, _, _, _, hem, _, _, _, htab, _, _, hbl, _⟩ := initializeDatabase_ok hinit
  unfold writeStep at hst
  rw [Outcome.bind_eq_ok] at hst
  obtain ⟨w, hw, hst⟩ := hst
  cases hst
  obtain ⟨pre, post, rfl⟩ := List.append_of_mem hv
  obtain ⟨hle, hvals⟩ := writeVars_elem hsp hw hnames hN hr hproper.1 (fun k b => hnone k b) b hb c hc
  rw [← hsame.elementMap] at hem
  obtain ⟨p, hp, hloc⟩ := element_position hem hproper.2 hb hj
  rw [hsame.lengths, ← hbl] at hloc
  rw [hN] at htab hle hvals
  rw [← elemVals_get hj]
  have hmem := component_mem hv hr (List.getElem_mem hc)
  by_cases hev : elemVals S b v c = none
  · rw [hev]
    unfold readElem
    rw [hp, hel]
    rcases hk : h.elemNames.idxOf? (v.name ++ (endings v.spec.length)[c]) with _ | k
    · rfl
    · simp only [Option.bind_eq_bind, Option.bind_some]
      rw [hloc]
      simp only [Option.bind_some]
      have hlen : (numbered (kindNames .element (pre ++ v :: post))).get
          (v.name ++ (endings v.spec.length)[c]) ≤ h.elemNames.length := by
        rcases table_ok htab with ht | ht
        · rw [ht.1]
          exact (get_bounds hnames hmem).2
        · rw [ht] at hk
          simp at hk
      obtain ⟨_, k', hk', hk1⟩ := name_position hnames htab hmem hlen
      rw [hk] at hk'
      cases hk'
      rw [hk1, hev] at hvals
      rw [hvals]
  · obtain ⟨_, k, hk, hk1⟩ := name_position hnames htab hmem (hle hev)
    unfold readElem
    rw [hk, hp, hel]
    rw [hk1] at hvals
    simp only [Option.bind_eq_bind, Option.bind_some]
    rw [hloc]
    simp only [Option.bind_some]
    rw [hvals]

/-- The stress of the point 7 at the second step, no stress for the point 3, the identifier of
point 5 counted from 1. -/
example : ∃ h r, session Demo.site Demo.vars Demo.steps = .ok (some (h, r)) ∧
    readElem h r 2 "StressYX" 7 = some (100 * 2 + (9 * 1 + 3 : Nat)) ∧
    readElem h r 2 "StressYX" 3 = none ∧ readElem h r 1 "Element_Id" 5 = some ((5 + 1 : Nat) : ℝ) := by
  obtain ⟨h, r, e⟩ := Demo.good
  refine ⟨h, r, e, ?_, ?_, ?_⟩
  · refine (element_variable_reads_back Demo.goodRequest.1 (Demo.goodRequest.2.2 _).1 e (i := 1) rfl
      (t0 := 0) (b0 := Demo.blocks 0) rfl rfl ⟨by simp [Demo.blocks, Demo.first, Demo.second],
        by simp [Demo.blocks, Demo.first, Demo.second, allIds]⟩ (v := Demo.stress)
      (by simp [Demo.vars]) rfl (c := 3) (by simp [Demo.stress, endings]) (b := Demo.second 2)
      (by simp [Demo.blocks]) (j := 1) (by simp [Demo.second])).trans ?_
    simp [elementValue, fieldValue, Demo.stress, Demo.second, stepOf, endings, Demo.site]
    norm_num
  · refine (element_variable_reads_back Demo.goodRequest.1 (Demo.goodRequest.2.2 _).1 e (i := 1) rfl
      (t0 := 0) (b0 := Demo.blocks 0) rfl rfl ⟨by simp [Demo.blocks, Demo.first, Demo.second],
        by simp [Demo.blocks, Demo.first, Demo.second, allIds]⟩ (v := Demo.stress)
      (by simp [Demo.vars]) rfl (c := 3) (by simp [Demo.stress, endings]) (b := Demo.first 2)
      (by simp [Demo.blocks]) (j := 0) (by simp [Demo.first])).trans ?_
    simp [elementValue, fieldValue, Demo.stress, Demo.first, stepOf, Demo.site]
  · refine (element_variable_reads_back Demo.goodRequest.1 (Demo.goodRequest.2.2 _).1 e (i := 0) rfl
      (t0 := 0) (b0 := Demo.blocks 0) rfl rfl ⟨by simp [Demo.blocks, Demo.first, Demo.second],
        by simp [Demo.blocks, Demo.first, Demo.second, allIds]⟩ (v := Demo.elementId)
      (by simp [Demo.vars]) rfl (c := 0) (by simp [Demo.elementId, endings]) (b := Demo.second 0)
      (by simp [Demo.blocks]) (j := 0) (by simp [Demo.second])).trans ?_
    simp [elementValue, Demo.elementId, Demo.second, Demo.site]
    norm_num

/-- C186. Component `c` of a global variable, looked up under its name, is the value the first
block has at that call: in files with fields of all kinds and in files with global variables only. -/
theorem global_variable_reads_back {S : Site} {vars : List Var} {steps : List (ℝ × List Blk)}
    {h : Header} {r : Records} (hsp : SpecialScalars S vars)
    (hnames : (kindNames .global vars).Nodup)
    (e : session S vars steps = .ok (some (h, r)))
    {i : Nat} {t : ℝ} {blocks : List Blk} (hi : steps[i]? = some (t, blocks))
    {v : Var} (hv : v ∈ vars) (hr : v.spec.relation = .global)
    (ht : v.spec.temporal ≠ .undefined)
    {c : Nat} (hc : c < (endings v.spec.length).length) :
    r.time (i + 1) = some t ∧ ∃ b, blocks.head? = some b ∧ (fieldValue b v c 0).isSome ∧
    readGlobal h r (i + 1) (v.name ++ (endings v.spec.length)[c]) = fieldValue b v c 0 := by
  obtain ⟨b0, N, r1, r2, _, hinit, hst, _, htime, _, _, hgl⟩ := session_step hsp e hi
  have hN : N.global = numbered (kindNames .global vars) ∧
      ∃ d, N.global.table d = .ok h.globalNames := by
    split at hinit
    · next hgo =>
      obtain ⟨h1, h2⟩ := initializeGlobalDatabase_ok hinit
      refine ⟨?_, true, h2⟩
      rw [(assignGlobals_ok h1 (globalDataOnly_iff.mp hgo)).2, addAll_empty _ hnames]
    · obtain ⟨_, h1, _⟩ := names_of_init hinit
      obtain ⟨_, _, _, _, _, _, _, h2, _⟩ := initializeDatabase_ok hinit
      exact ⟨by rw [h1, addAll_empty _ hnames], _, h2⟩
  obtain ⟨hN, d, htab⟩ := hN
  have htime' := (writeStep_frame hsp hst).1
  unfold writeStep at hst
  rw [Outcome.bind_eq_ok] at hst
  obtain ⟨w, hw, hst⟩ := hst
  cases hst
  obtain ⟨pre, post, rfl⟩ := List.append_of_mem hv
  obtain ⟨hg, hlen, dd, hdd, hval⟩ := writeVars_global hsp hw hr
  obtain ⟨b, bs, rfl, hbd⟩ := firstData_ok hdd ht
  have hfv : fieldValue b v c 0 = some (dd c) := by
    unfold fieldValue
    rw [hbd]
    simp
  refine ⟨by rw [htime, htime'], b, rfl, by rw [hfv]; rfl, ?_⟩
  have hmem := component_mem hv hr (List.getElem_mem hc)
  rw [hN] at htab hlen
  have hle : (numbered (kindNames .global (pre ++ v :: post))).get
      (v.name ++ (endings v.spec.length)[c]) ≤ h.globalNames.length := by
    rw [hlen]
    simp only [List.length_replicate]
    have := (get_bounds hnames hmem).2
    simpa [numbered] using this
  obtain ⟨htl, k, hk, hk1⟩ := name_position hnames htab hmem hle
  have hkk : k = (kindNames .global pre).length + c := by
    have hsplit : kindNames .global (pre ++ v :: post) =
        kindNames .global pre ++ (v.components ++ kindNames .global post) := by
      rw [kindNames_append, kindNames_cons, if_pos hr]
    have hlt : (kindNames .global pre).length + c < (kindNames .global (pre ++ v :: post)).length := by
      rw [hsplit]
      simp [Var.components]
      omega
    have hget : (kindNames .global (pre ++ v :: post))[(kindNames .global pre).length + c] =
        v.name ++ (endings v.spec.length)[c] := by
      simp only [hsplit]
      rw [List.getElem_append_right (by omega), List.getElem_append_left (by simpa [Var.components] using hc)]
      simp [Var.components]
    have := get_numbered hnames hlt
    rw [hget] at this
    omega
  unfold readGlobal
  rw [hk, hgl, hg, hfv, hkk]
  simp only [Option.bind_eq_bind, Option.bind_some]
  simpa using hval c hc

/-- The energy of the example at its second step. -/
example : ∃ h r, session Demo.site Demo.vars Demo.steps = .ok (some (h, r)) ∧
    readGlobal h r 2 "Energy" = some (7 * 2) := by
  obtain ⟨h, r, e⟩ := Demo.good
  refine ⟨h, r, e, ?_⟩
  obtain ⟨_, b, hb, _, hr⟩ := global_variable_reads_back Demo.goodRequest.1
    (Demo.goodRequest.2.2 _).1 e (i := 1) rfl (v := Demo.energy)
    (by simp [Demo.vars]) rfl (by simp [Demo.energy]) (c := 0) (by simp [Demo.energy, endings])
  simp [Demo.blocks] at hb
  subst hb
  refine hr.trans ?_
  simp [fieldValue, Demo.energy, Demo.first, stepOf]

/-- A file with global variables only. -/
example : ∃ h r, session Demo.site [Demo.energy] Demo.steps = .ok (some (h, r)) ∧
    readGlobal h r 2 "Energy" = some (7 * 2) := by
  have hreq : GoodRequest Demo.site [Demo.energy] := by
    refine ⟨?_, ?_, ?_⟩
    · intro v hv _
      simp at hv
      subst hv
      rfl
    · intro v hv
      simp at hv
      subst hv
      simp [Allowed, Demo.energy]
    · intro r
      cases r
      all_goals decide
  obtain ⟨h, r, e⟩ : ∃ h r, session Demo.site [Demo.energy] Demo.steps = .ok (some (h, r)) := by
    refine session_defined (t0 := 0) (b0 := Demo.blocks 0) rfl hreq ?_ (Or.inl ⟨rfl, rfl⟩)
    intro p hp
    simp [Demo.steps] at hp
    rcases hp with rfl | rfl
    all_goals
      refine ⟨?_, ?_⟩
      · intro v hv hr
        simp at hv
        subst hv
        cases hr
      · intro v hv hr
        refine ⟨_, rfl, ?_⟩
        simp at hv
        subst hv
        simp [Demo.first, stepOf, Demo.energy]
  refine ⟨h, r, e, ?_⟩
  obtain ⟨_, b, hb, _, hr⟩ := global_variable_reads_back hreq.1
    (hreq.2.2 _).1 e (i := 1) rfl (v := Demo.energy)
    (by simp) rfl (by simp [Demo.energy]) (c := 0) (by simp [Demo.energy, endings])
  simp [Demo.blocks] at hb
  subst hb
  refine hr.trans ?_
  simp [fieldValue, Demo.energy, Demo.first, stepOf]

end Verif.Exodus
