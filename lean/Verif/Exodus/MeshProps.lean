import Verif.Exodus.ReadProps

/-! # The mesh, the node sets and the truth table in the output file -/

namespace Verif.Exodus

open Verif Verif.Field Verif.Mech

theorem find_block {l : List Blk} (hid : (l.map Blk.id).Nodup) {b : Blk} (hb : b ∈ l)
    (hne : b.gids ≠ []) : l.reverse.find? (fun a => a.id = b.id && !a.gids.isEmpty) = some b := by
  have hinj : ∀ a ∈ l, a.id = b.id → a = b := fun a ha h => List.inj_on_of_nodup_map hid ha hb h
  cases hf : l.reverse.find? (fun a => a.id = b.id && !a.gids.isEmpty) with
  | none =>
    rw [List.find?_eq_none] at hf
    have := hf b (List.mem_reverse.mpr hb)
    simp [hne] at this
  | some a =>
    have h1 := List.find?_some hf
    have h2 := List.mem_of_find?_eq_some hf
    simp at h1
    rw [hinj a (List.mem_reverse.mp h2) h1.1]

theorem session_init {S : Site} {vars : List Var} {steps : List (ℝ × List Blk)}
    {h : Header} {r : Records} (e : session S vars steps = .ok (some (h, r)))
    (hgo : globalDataOnly vars = false) {t0 : ℝ} {b0 : List Blk} (h0 : steps[0]? = some (t0, b0)) :
    ∃ N, initializeDatabase S vars b0 = .ok (h, N) := by
  obtain ⟨t, b, rest, N, rfl, hinit, _⟩ := session_ok e
  simp at h0
  obtain ⟨rfl, rfl⟩ := h0
  rw [if_neg (by simp [hgo])] at hinit
  exact ⟨N, hinit⟩

/-- C187. The mesh in the file: the position of a point is the one of the analysis, the element
with the identifier of a point lies in the block of the point, and its node is the point. -/
theorem mesh_reads_back {S : Site} {vars : List Var} {steps : List (ℝ × List Blk)}
    {h : Header} {r : Records} (e : session S vars steps = .ok (some (h, r)))
    (hgo : globalDataOnly vars = false) {t0 : ℝ} {b0 : List Blk} (h0 : steps[0]? = some (t0, b0))
    (hown : S.owned.Nodup) (hproper : Proper b0) (hsub : ∀ g ∈ allIds b0, g ∈ S.owned) :
    (∀ (p : Nat) (hp : p < S.owned.length), readPosition h S.owned[p] =
      some ![S.x (3 * p), S.x (3 * p + 1), S.x (3 * p + 2)]) ∧
    ∀ b ∈ b0, ∀ g ∈ b.gids, readElementBlock h g = some b.id ∧
      readElementNode h g = some (g + 1) := by
  obtain ⟨N, hinit⟩ := session_init e hgo h0
  obtain ⟨_, _, _, _, _, hem, _, _, _, _, _, hco, hbl, hcn, hmap, _⟩ := initializeDatabase_ok hinit
  constructor
  · intro p hp
    unfold readPosition
    have : (h.nodeMap).idxOf? (S.owned[p] + 1) = some p := by
      rw [hmap, idxOf?_map_succ, idxOf?_of_mem (List.getElem_mem hp), hown.idxOf_getElem]
    rw [this, hco]
    simp only [Option.bind_eq_bind, Option.bind_some]
    rw [List.getElem?_map, List.getElem?_range hp]
    rfl
  · intro b hb g hg
    obtain ⟨j, hj, rfl⟩ := List.getElem_of_mem hg
    obtain ⟨p, hp, hloc⟩ := element_position hem hproper.2 hb hj
    rw [← hbl] at hloc
    constructor
    · unfold readElementBlock
      rw [hp]
      simp only [Option.bind_eq_bind, Option.bind_some]
      rw [hloc]
      rfl
    · unfold readElementNode
      rw [hp]
      simp only [Option.bind_eq_bind, Option.bind_some]
      rw [hloc]
      simp only [Option.bind_some]
      have hne : b.gids ≠ [] := List.ne_nil_of_mem hg
      obtain ⟨l, hl, _⟩ := lid_of_mem (hsub b.gids[j] (by
        unfold allIds
        exact List.mem_flatMap.mpr ⟨b, hb, hg⟩))
      have hc : (connectivity S.owned b0 b.id) = some (b.gids.map fun g => match lid S.owned g with
          | some l => l + 1
          | none => 0) := by
        unfold connectivity
        rw [find_block hproper.1 hb hne]
        rfl
      rw [hcn, hc]
      simp only [Option.bind_some]
      rw [List.getElem?_map, List.getElem?_eq_getElem hj]
      simp only [Option.map_some, hl, Option.bind_some]
      rw [if_neg (Nat.succ_ne_zero l), hmap, List.getElem?_map, Nat.add_sub_cancel, lid_some hl]
      rfl

example : ∃ h r, session Demo.site Demo.vars Demo.steps = .ok (some (h, r)) ∧
    readPosition h 5 = some ![((3 * 2 : Nat) : ℝ), ((3 * 2 + 1 : Nat) : ℝ), ((3 * 2 + 2 : Nat) : ℝ)] ∧
    readElementBlock h 7 = some 4 ∧ readElementNode h 7 = some 8 := by
  obtain ⟨h, r, e⟩ := Demo.good
  obtain ⟨h1, h2⟩ := mesh_reads_back e rfl rfl (by simp [Demo.site])
    ⟨by simp [Demo.blocks, Demo.first, Demo.second],
      by simp [Demo.blocks, Demo.first, Demo.second, allIds]⟩
    (by simp [Demo.blocks, Demo.first, Demo.second, allIds, Demo.site])
  refine ⟨h, r, e, h1 2 (by simp [Demo.site]), ?_⟩
  exact h2 (Demo.second 0) (by simp [Demo.blocks]) 7 (by simp [Demo.second])

/-- C188. Every node set of the processor is in the file under its name, with its points in their
order. -/
theorem node_set_reads_back {S : Site} {vars : List Var} {steps : List (ℝ × List Blk)}
    {h : Header} {r : Records} (e : session S vars steps = .ok (some (h, r)))
    (hgo : globalDataOnly vars = false) (hn : (S.nodeSets.map Prod.fst).Nodup)
    {name : String} {gs : List Nat} (hs : (name, gs) ∈ S.nodeSets) :
    readNodeSet h name = some (gs.map fun g => some (g + 1)) := by
  obtain ⟨t, b, rest, N, hst, _, _⟩ := session_ok e
  obtain ⟨N, hinit⟩ := session_init e hgo (t0 := t) (b0 := b) (by rw [hst]; rfl)
  obtain ⟨sets, h1, h2, _, _, _, _, _, _, _, _, _, _, _, hmap, h3, h4⟩ := initializeDatabase_ok hinit
  obtain ⟨k, hk⟩ := List.getElem?_of_mem hs
  obtain ⟨n1, n2⟩ := exodusNodeSets_ok h1
  obtain ⟨s, hs1, hs2⟩ := n2 k name gs hk
  obtain ⟨l1, l2⟩ := exodusNodeSet_ok hs2
  obtain ⟨first, f1, f2⟩ := concatSets_get (k0 := 0) (offset := 0) (done := []) rfl hs1
  rw [List.nil_append] at f2
  have hname : h.setNames.idxOf? name = some k := by
    rw [(copyNames_ok h2).1, n1]
    have hlt : k < (S.nodeSets.map Prod.fst).length := by
      rw [List.length_map]
      exact (List.getElem?_eq_some_iff.mp hk).1
    have hget : (S.nodeSets.map Prod.fst)[k] = name := by
      have : (S.nodeSets.map Prod.fst)[k]? = some name := by
        rw [List.getElem?_map, hk]
        rfl
      exact (List.getElem?_eq_some_iff.mp this).2
    rw [← hget, List.idxOf?_eq_some_iff]
    refine ⟨hlt, rfl, ?_⟩
    intro j hj heq
    have := (List.Nodup.getElem_inj_iff hn).mp heq
    omega
  unfold readNodeSet
  rw [hname]
  simp only [Option.bind_eq_bind, Option.bind_some]
  rw [h3, f1]
  simp only [Option.bind_some]
  rw [h4, f2, hmap]
  congr 1
  apply List.ext_getElem?
  intro i
  rw [List.getElem?_map, List.getElem?_map]
  by_cases hi : i < gs.length
  · obtain ⟨p, hp, hsp⟩ := l2 i hi
    rw [hsp, List.getElem?_eq_getElem hi]
    simp only [Option.map_some]
    rw [if_neg (by omega), List.getElem?_map, Nat.add_sub_cancel, lid_some hp]
    rfl
  · rw [List.getElem?_eq_none (by omega), List.getElem?_eq_none (by omega)]
    rfl

example : ∃ h r, session Demo.site Demo.vars Demo.steps = .ok (some (h, r)) ∧
    readNodeSet h "left" = some [some 6, some 8] ∧ readNodeSet h "right" = some [some 4] := by
  obtain ⟨h, r, e⟩ := Demo.good
  refine ⟨h, r, e, ?_, ?_⟩
  · exact node_set_reads_back e rfl (by simp [Demo.site]) (gs := [5, 7]) (by simp [Demo.site])
  · exact node_set_reads_back e rfl (by simp [Demo.site]) (gs := [3]) (by simp [Demo.site])

theorem exodusNodeSet_foreign {owned gs : List Nat} (h : ∃ g ∈ gs, g ∉ owned) :
    exodusNodeSet owned gs = .fail .terminate := by
  induction gs with
  | nil =>
    obtain ⟨g, hg, _⟩ := h
    exact absurd hg List.not_mem_nil
  | cons g gs ih =>
    rw [exodusNodeSet]
    cases hl : lid owned g with
    | none => rfl
    | some l =>
      obtain ⟨g', hg', hn⟩ := h
      rcases List.mem_cons.mp hg' with rfl | hg'
      · exact absurd (List.mem_of_getElem? (lid_some hl)) hn
      · simp only
        rw [ih ⟨g', hg', hn⟩]
        rfl

/-- C188. A node set with a point of another processor ends the run: it is not dropped. -/
theorem foreign_node_terminates {S : Site} {vars : List Var} {p : ℝ × List Blk}
    {steps : List (ℝ × List Blk)} (hgo : globalDataOnly vars = false)
    (h : ∃ s ∈ S.nodeSets, ∃ g ∈ s.2, g ∉ S.owned) :
    session S vars (p :: steps) = .fail .terminate := by
  have key : ∀ l : List (String × List Nat), (∃ s ∈ l, ∃ g ∈ s.2, g ∉ S.owned) →
      exodusNodeSets S.owned l = .fail .terminate := by
    intro l
    induction l with
    | nil =>
      intro ⟨s, hs, _⟩
      exact absurd hs List.not_mem_nil
    | cons a l ih =>
      intro hl
      obtain ⟨nm, gs⟩ := a
      rw [exodusNodeSets]
      by_cases hg : ∃ g ∈ gs, g ∉ S.owned
      · rw [exodusNodeSet_foreign hg]
        rfl
      · obtain ⟨s, hs⟩ := exodusNodeSet_defined (owned := S.owned) (gs := gs)
          fun g hg' => by_contra fun hn => hg ⟨g, hg', hn⟩
        rw [hs]
        simp only [Outcome.ok_bind]
        rw [ih]
        · rfl
        · obtain ⟨s', hs', g, hg', hn⟩ := hl
          rcases List.mem_cons.mp hs' with rfl | hs'
          · exact absurd ⟨g, hg', hn⟩ hg
          · exact ⟨s', hs', g, hg', hn⟩
  obtain ⟨t, b⟩ := p
  unfold session
  simp only
  rw [if_neg (by simp [hgo]), if_neg (by simp [hgo]), initializeDatabase, key _ h]
  rfl

example : session { Demo.site with nodeSets := [("a", [3]), ("b", [5, 9])] } Demo.vars Demo.steps =
    .fail .terminate := by
  apply foreign_node_terminates rfl
  exact ⟨("b", [5, 9]), by simp, 9, by simp, by simp [Demo.site]⟩

/-- C190. The truth table tells which element variables have values in which blocks: for a block with
points its entry is true exactly when the values of the first step are in the file. -/
theorem truth_table_tells {S : Site} {vars : List Var} {steps : List (ℝ × List Blk)}
    {h : Header} {r : Records} (hsp : SpecialScalars S vars) (hnames : (kindNames .element vars).Nodup)
    (e : session S vars steps = .ok (some (h, r)))
    {t0 : ℝ} {b0 : List Blk} (h0 : steps[0]? = some (t0, b0))
    (hproper : Proper b0) (hown : S.owned ≠ []) {v : Var} (hv : v ∈ vars)
    (hr : v.spec.relation = .element)
    {c : Nat} (hc : c < (endings v.spec.length).length) {b : Blk} (hb : b ∈ b0) {j : Nat}
    (hj : j < b.gids.length) :
    ∃ flag, readTruth h b.id (v.name ++ (endings v.spec.length)[c]) = some flag ∧
      (flag = true ↔
        (readElem h r 1 (v.name ++ (endings v.spec.length)[c]) b.gids[j]).isSome) := by
  have hread := element_variable_reads_back hsp hnames e h0 h0 rfl hproper hv hr hc hb hj
  rw [Nat.zero_add] at hread
  have hgo := not_globalDataOnly hv (by rw [hr]; simp)
  obtain ⟨N, hinit⟩ := session_init e hgo h0
  obtain ⟨hall, _, _, hN⟩ := names_of_init hinit
  rw [addAll_empty _ hnames] at hN
  obtain ⟨_, _, _, _, _, _, _, _, _, htab, htt, _, hbl, _⟩ := initializeDatabase_ok hinit
  have hd : (!S.owned.isEmpty) = true := by
    cases ho : S.owned with
    | nil => exact absurd ho hown
    | cons _ _ => rfl
  have hmem := component_mem hv hr (List.getElem_mem hc)
  have hlenpos : (kindNames .element vars).length > 0 := List.length_pos_of_mem hmem
  rw [hN] at htab htt
  have hlen : (numbered (kindNames .element vars)).map.length = (kindNames .element vars).length := by
    simp [numbered]
  unfold truthTable at htt
  rw [hd] at htt
  rw [if_pos (by simp [hlen, hlenpos]), truthRows_eq hall, hlen] at htt
  simp only [Outcome.ok_bind] at htt
  have hrows : (b0.flatMap fun b => (vars.filter fun v => v.spec.relation = .element).flatMap fun v =>
      List.replicate v.components.length (truthValue S b v)).length =
        b0.length * (kindNames .element vars).length := by
    rw [List.length_flatMap]
    simp only [truth_row_length]
    simp
  rw [if_pos (by rw [hrows])] at htt
  rw [hrows, Nat.sub_self, List.replicate_zero, List.append_nil] at htt
  have htruth := (Outcome.ok.inj htt).symm
  rw [hd] at htab
  have htn := (table_true htab).1
  refine ⟨truthValue S b v, ?_, ?_⟩
  · obtain ⟨q, hq⟩ := List.getElem?_of_mem hb
    obtain ⟨hq1, hq2⟩ := List.getElem?_eq_some_iff.mp hq
    have hqid : (h.blocks.map Prod.fst).idxOf? b.id = some q := by
      have hm : h.blocks.map Prod.fst = b0.map Blk.id := by
        rw [hbl]
        simp [Function.comp_def]
      rw [hm]
      rw [idxOf?_of_mem (List.mem_map_of_mem hb)]
      have hlt : q < (b0.map Blk.id).length := by simpa using hq1
      have hget : (b0.map Blk.id)[q] = b.id := by simp [hq2]
      rw [← hget, hproper.1.idxOf_getElem]
    obtain ⟨pre, post, rfl⟩ := List.append_of_mem hv
    have hsplit : kindNames .element (pre ++ v :: post) =
        kindNames .element pre ++ (v.components ++ kindNames .element post) := by
      rw [kindNames_append, kindNames_cons, if_pos hr]
    have hlt : (kindNames .element pre).length + c < (kindNames .element (pre ++ v :: post)).length := by
      rw [hsplit]
      simp [Var.components]
      omega
    have hget : (kindNames .element (pre ++ v :: post))[(kindNames .element pre).length + c] =
        v.name ++ (endings v.spec.length)[c] := by
      simp only [hsplit]
      rw [List.getElem_append_right (by omega), List.getElem_append_left (by simpa [Var.components] using hc)]
      simp [Var.components]
    have hk : h.elemNames.idxOf? (v.name ++ (endings v.spec.length)[c]) =
        some ((kindNames .element pre).length + c) := by
      rw [htn, idxOf?_of_mem hmem, ← hget, hnames.idxOf_getElem]
    unfold readTruth
    rw [hqid, hk]
    simp only [Option.bind_eq_bind, Option.bind_some]
    rw [htn, htruth, flatMap_get _ _ (kindNames .element (pre ++ v :: post)).length
      (fun a _ => truth_row_length S a _) q _ hq1 hlt, hq2]
    exact truth_position hr (by simpa [Var.components] using hc)
  · rw [hread]
    unfold truthValue elementValue fieldValue
    by_cases h1 : v.spec.id = S.idField
    · simp [h1, hj]
    · by_cases h2 : v.spec.id = S.procField
      · rw [if_neg h1, if_pos h2]
        simp [h2]
      · simp [h1, h2]

/-- The first block of the example has no stress, the second one does. -/
example : ∃ h r, session Demo.site Demo.vars Demo.steps = .ok (some (h, r)) ∧
    readTruth h 1 "StressYX" = some false ∧ readTruth h 4 "StressYX" = some true := by
  obtain ⟨h, r, e⟩ := Demo.good
  have hp : Proper (Demo.blocks 0) := ⟨by simp [Demo.blocks, Demo.first, Demo.second],
        by simp [Demo.blocks, Demo.first, Demo.second, allIds]⟩
  refine ⟨h, r, e, ?_, ?_⟩
  · obtain ⟨f, h1, h2⟩ := truth_table_tells Demo.goodRequest.1 (Demo.goodRequest.2.2 _).1 e
      rfl hp (by simp [Demo.site]) (v := Demo.stress) (by simp [Demo.vars]) rfl (c := 3)
      (by simp [Demo.stress, endings]) (b := Demo.first 0) (by simp [Demo.blocks]) (j := 0)
      (by simp [Demo.first])
    rw [element_variable_reads_back Demo.goodRequest.1 (Demo.goodRequest.2.2 _).1 e (i := 0) rfl
      rfl rfl hp (v := Demo.stress) (by simp [Demo.vars]) rfl (by simp [Demo.stress, endings])
      (b := Demo.first 0) (by simp [Demo.blocks]) (j := 0) (by simp [Demo.first])] at h2
    refine h1.trans ?_
    simpa [elementValue, fieldValue, Demo.stress, Demo.first, stepOf, Demo.site] using h2
  · obtain ⟨f, h1, h2⟩ := truth_table_tells Demo.goodRequest.1 (Demo.goodRequest.2.2 _).1 e
      rfl hp (by simp [Demo.site]) (v := Demo.stress) (by simp [Demo.vars]) rfl (c := 3)
      (by simp [Demo.stress, endings]) (b := Demo.second 0) (by simp [Demo.blocks]) (j := 0)
      (by simp [Demo.second])
    rw [element_variable_reads_back Demo.goodRequest.1 (Demo.goodRequest.2.2 _).1 e (i := 0) rfl
      rfl rfl hp (v := Demo.stress) (by simp [Demo.vars]) rfl (by simp [Demo.stress, endings])
      (b := Demo.second 0) (by simp [Demo.blocks]) (j := 0) (by simp [Demo.second])] at h2
    refine h1.trans ?_
    simpa [elementValue, fieldValue, Demo.stress, Demo.second, stepOf, Demo.site] using h2

end Verif.Exodus
