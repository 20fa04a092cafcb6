import Verif.Exodus.StepLemmas

/-! # The header -/

namespace Verif.Exodus

open Verif Verif.Field Verif.Mech

/-- The parts of a header. -/
theorem initializeDatabase_ok {S : Site} {vars : List Var} {blocks : List Blk} {h : Header}
    {N : Names} (e : initializeDatabase S vars blocks = .ok (h, N)) :
    ∃ sets, exodusNodeSets S.owned S.nodeSets = .ok sets ∧
      copyNames (sets.map Prod.fst) = .ok h.setNames ∧ blocks ≠ [] ∧
      copyNames (blocks.map Blk.name) = .ok h.blockNames ∧
      elementMap S.owned blocks = .ok h.elemMap ∧
      Names.assignAll ⟨Index.empty, Index.empty, Index.empty⟩ vars = .ok N ∧
      N.global.table (!S.owned.isEmpty) = .ok h.globalNames ∧
      N.node.table (!S.owned.isEmpty) = .ok h.nodeNames ∧
      N.elem.table (!S.owned.isEmpty) = .ok h.elemNames ∧
      truthTable S vars blocks N.elem.map.length (!S.owned.isEmpty) = .ok h.truth ∧
      h.coords = ((List.range S.owned.length).map fun i =>
        ![S.x (3 * i), S.x (3 * i + 1), S.x (3 * i + 2)]) ∧
      h.blocks = (blocks.map fun b => (b.id, b.gids.length)) ∧
      h.conn = connectivity S.owned blocks ∧ h.nodeMap = S.owned.map (· + 1) ∧
      h.sets = (concatSets sets 0 0).1 ∧ h.setNodes = (concatSets sets 0 0).2 := by
  unfold initializeDatabase at e
  rw [Outcome.bind_eq_ok] at e
  obtain ⟨sets, h1, e⟩ := e
  simp only at e
  rw [Outcome.bind_eq_ok] at e
  obtain ⟨sn, h2, e⟩ := e
  split at e
  · cases e
  · next hb =>
    simp only [Outcome.bind_eq_ok] at e
    obtain ⟨bn, h3, em, h4, N', h5, gn, h6, nn, h7, en, h8, tt, h9, e⟩ := e
    cases e
    refine ⟨sets, h1, h2, ?_, h3, h4, h5, h6, h7, h8, h9, rfl, rfl, rfl, rfl, rfl, rfl⟩
    intro hn
    rw [hn] at hb
    exact hb rfl

theorem initializeGlobalDatabase_ok {vars : List Var} {h : Header} {N : Names}
    (e : initializeGlobalDatabase vars = .ok (h, N)) :
    Index.empty.assignGlobals vars = .ok N.global ∧ N.global.table true = .ok h.globalNames := by
  unfold initializeGlobalDatabase at e
  simp only [Outcome.bind_eq_ok] at e
  obtain ⟨g, h1, ns, h2, e⟩ := e
  cases e
  exact ⟨h1, h2⟩

theorem names_of_init {S : Site} {vars : List Var} {blocks : List Blk} {h : Header}
    {N : Names} (e : initializeDatabase S vars blocks = .ok (h, N)) :
    (∀ v ∈ vars, Allowed v) ∧
    N.global = Index.empty.addAll (kindNames .global vars) ∧
    N.node = Index.empty.addAll (kindNames .node vars) ∧
    N.elem = Index.empty.addAll (kindNames .element vars) := by
  obtain ⟨_, _, _, _, _, _, h5, _⟩ := initializeDatabase_ok e
  exact assignAll_ok h5

/-- The position of a name in the table of names, for a name whose number was accepted by the
library. -/
theorem name_position {l t : List String} {d : Bool} (hl : l.Nodup)
    (h : (numbered l).table d = .ok t) {a : String} (ha : a ∈ l)
    (hk : (numbered l).get a ≤ t.length) :
    t = l ∧ ∃ k, t.idxOf? a = some k ∧ (numbered l).get a = k + 1 := by
  have hg := get_numbered_mem hl ha
  have ht : t = l := by
    rcases table_ok h with h' | h'
    · exact h'.1
    · rw [h'] at hk
      rw [hg] at hk
      simp at hk
  refine ⟨ht, l.idxOf a, ?_, hg⟩
  rw [ht]
  exact idxOf?_of_mem ha

theorem idxOf?_map_succ (l : List Nat) (g : Nat) : (l.map (· + 1)).idxOf? (g + 1) = l.idxOf? g := by
  induction l with
  | nil => rfl
  | cons a l ih =>
    rw [List.map_cons, List.idxOf?_cons, List.idxOf?_cons, ih]
    congr 1
    simp

theorem node_position {S : Site} {g l : Nat} (h : lid S.owned g = some l) :
    (S.owned.map (· + 1)).idxOf? (g + 1) = some l := by
  rw [idxOf?_map_succ]
  exact h

/-! ## Elements -/

theorem elementMap_ok {owned : List Nat} {blocks : List Blk} {m : List Nat}
    (h : elementMap owned blocks = .ok m) :
    ∃ z, m = (allIds blocks).map (· + 1) ++ List.replicate z 0 ∧
      (allIds blocks).length + z = owned.length := by
  unfold elementMap at h
  simp only at h
  have hflat : (blocks.flatMap fun b => b.gids.map (· + 1)) = (allIds blocks).map (· + 1) := by
    simp [allIds, List.map_flatMap]
  rw [hflat] at h
  split at h
  · next hle =>
    cases h
    refine ⟨_, rfl, ?_⟩
    simp at hle ⊢
    omega
  · cases h

theorem idxOf?_append_left {l m : List Nat} {a : Nat} (h : a ∈ l) : (l ++ m).idxOf? a = l.idxOf? a := by
  rw [idxOf?_of_mem h, idxOf?_of_mem (List.mem_append_left _ h), List.idxOf_append_of_mem h]

theorem locate_shift {l : List (Int × Nat)} {id : Int} {m p : Nat} :
    locate ((id, m) :: l) (m + p) = locate l p := by
  rw [locate, if_neg (by omega)]
  congr 1
  omega

theorem locate_position {blocks : List Blk} (hn : (allIds blocks).Nodup) {b : Blk} (hb : b ∈ blocks)
    {j : Nat} (hj : j < b.gids.length) :
    ∃ p, (allIds blocks).idxOf? b.gids[j] = some p ∧
      locate (blocks.map fun b => (b.id, b.gids.length)) p = some (b.id, j) := by
  induction blocks with
  | nil => exact absurd hb List.not_mem_nil
  | cons a bs ih =>
    have hcons : allIds (a :: bs) = a.gids ++ allIds bs := by simp [allIds]
    rw [hcons] at hn ⊢
    have hn' := List.nodup_append.mp hn
    rw [List.map_cons]
    rcases List.mem_cons.mp hb with rfl | hb'
    · refine ⟨j, ?_, ?_⟩
      · rw [idxOf?_append_left (List.getElem_mem hj), idxOf?_of_mem (List.getElem_mem hj),
          hn'.1.idxOf_getElem]
      · rw [locate, if_pos hj]
    · obtain ⟨p, h1, h2⟩ := ih hn'.2.1 hb'
      have hmem : b.gids[j] ∈ allIds bs := by
        unfold allIds
        rw [List.mem_flatMap]
        exact ⟨b, hb', List.getElem_mem hj⟩
      have hnot : b.gids[j] ∉ a.gids := fun h => hn'.2.2 _ h _ hmem rfl
      refine ⟨a.gids.length + p, ?_, ?_⟩
      · rw [idxOf?_of_mem hmem] at h1
        rw [idxOf?_of_mem (List.mem_append_right _ hmem), List.idxOf_append_of_notMem hnot]
        congr 2
        exact Option.some.inj h1
      · rw [locate_shift]
        exact h2

/-- Where the file has the element with the identifier of a point. -/
theorem element_position {S : Site} {blocks : List Blk} {m : List Nat}
    (h : elementMap S.owned blocks = .ok m) (hn : (allIds blocks).Nodup) {b : Blk} (hb : b ∈ blocks)
    {j : Nat} (hj : j < b.gids.length) :
    ∃ p, m.idxOf? (b.gids[j] + 1) = some p ∧
      locate (blocks.map fun b => (b.id, b.gids.length)) p = some (b.id, j) := by
  obtain ⟨z, hm, _⟩ := elementMap_ok h
  obtain ⟨p, h1, h2⟩ := locate_position hn hb hj
  refine ⟨p, ?_, h2⟩
  have hmem : b.gids[j] ∈ allIds blocks := by
    unfold allIds
    rw [List.mem_flatMap]
    exact ⟨b, hb, List.getElem_mem hj⟩
  have hmem' : b.gids[j] + 1 ∈ (allIds blocks).map (· + 1) := List.mem_map.mpr ⟨_, hmem, rfl⟩
  rw [hm, idxOf?_append_left hmem', idxOf?_map_succ]
  exact h1

theorem SameBlocks.ids {a b : List Blk} (h : SameBlocks a b) : allIds a = allIds b := by
  unfold SameBlocks at h
  have : (a.map fun b => (b.id, b.gids)).flatMap Prod.snd = (b.map fun b => (b.id, b.gids)).flatMap Prod.snd :=
    by rw [h]
  simpa [allIds, List.flatMap_map] using this

theorem SameBlocks.lengths {a b : List Blk} (h : SameBlocks a b) :
    (a.map fun b => (b.id, b.gids.length)) = b.map fun b => (b.id, b.gids.length) := by
  unfold SameBlocks at h
  have := congrArg (List.map fun p : Int × List Nat => (p.1, p.2.length)) h
  simpa [Function.comp_def] using this

theorem SameBlocks.blockIds {a b : List Blk} (h : SameBlocks a b) : a.map Blk.id = b.map Blk.id := by
  unfold SameBlocks at h
  have := congrArg (List.map Prod.fst) h
  simpa [Function.comp_def] using this

theorem SameBlocks.elementMap {a b : List Blk} (h : SameBlocks a b) (owned : List Nat) :
    elementMap owned a = elementMap owned b := by
  have hf : ∀ l : List Blk, (l.flatMap fun b => b.gids.map (· + 1)) = (allIds l).map (· + 1) := by
    intro l
    simp [allIds, List.map_flatMap]
  unfold Verif.Exodus.elementMap
  simp only [hf, h.ids]

/-! ## Node sets -/

theorem exodusNodeSet_ok {owned gs l : List Nat} (h : exodusNodeSet owned gs = .ok l) :
    l.length = gs.length ∧ ∀ (i : Nat) (hi : i < gs.length), ∃ p, lid owned gs[i] = some p ∧
      l[i]? = some (p + 1) := by
  induction gs generalizing l with
  | nil =>
    rw [exodusNodeSet] at h
    cases h
    exact ⟨rfl, fun i hi => absurd hi (Nat.not_lt_zero _)⟩
  | cons g gs ih =>
    rw [exodusNodeSet] at h
    split at h
    · cases h
    · next p hp =>
      rw [Outcome.bind_eq_ok] at h
      obtain ⟨r, hr, h⟩ := h
      cases h
      obtain ⟨h1, h2⟩ := ih hr
      refine ⟨by simp [h1], ?_⟩
      intro i hi
      cases i with
      | zero => exact ⟨p, hp, rfl⟩
      | succ i =>
        obtain ⟨q, hq, hl⟩ := h2 i (by simpa using hi)
        exact ⟨q, by simpa using hq, by simpa using hl⟩

theorem exodusNodeSets_ok {owned : List Nat} {l l' : List (String × List Nat)}
    (h : exodusNodeSets owned l = .ok l') :
    l'.map Prod.fst = l.map Prod.fst ∧ ∀ (k : Nat) (name : String) (gs : List Nat),
      l[k]? = some (name, gs) → ∃ s, l'[k]? = some (name, s) ∧ exodusNodeSet owned gs = .ok s := by
  induction l generalizing l' with
  | nil =>
    rw [exodusNodeSets] at h
    cases h
    exact ⟨rfl, fun k name gs hk => by simp at hk⟩
  | cons a l ih =>
    obtain ⟨nm, g0⟩ := a
    rw [exodusNodeSets] at h
    simp only [Outcome.bind_eq_ok] at h
    obtain ⟨s, hs, ss, hss, h⟩ := h
    cases h
    obtain ⟨h1, h2⟩ := ih hss
    refine ⟨by simp [h1], ?_⟩
    intro k name gs hk
    cases k with
    | zero =>
      simp at hk
      obtain ⟨rfl, rfl⟩ := hk
      exact ⟨s, rfl, hs⟩
    | succ k =>
      obtain ⟨t, ht, ht'⟩ := h2 k name gs (by simpa using hk)
      exact ⟨t, by simpa using ht, ht'⟩

theorem concatSets_get {l : List (String × List Nat)} {k0 offset : Nat} {done : List Nat}
    (hd : done.length = offset) {k : Nat} {name : String} {s : List Nat} (hk : l[k]? = some (name, s)) :
    ∃ first, (concatSets l k0 offset).1[k]? = some (k0 + k + 1, s.length, first) ∧
      ((done ++ (concatSets l k0 offset).2).drop first).take s.length = s := by
  induction l generalizing k0 offset done k with
  | nil => simp at hk
  | cons a l ih =>
    obtain ⟨nm, g0⟩ := a
    rw [concatSets]
    cases k with
    | zero =>
      simp at hk
      obtain ⟨rfl, rfl⟩ := hk
      refine ⟨offset, by simp, ?_⟩
      simp [← hd]
    | succ k =>
      obtain ⟨first, h1, h2⟩ := ih (k0 := k0 + 1) (offset := offset + g0.length) (done := done ++ g0)
        (by simp [hd]) (by simpa using hk)
      refine ⟨first, ?_, ?_⟩
      · simp only [List.getElem?_cons_succ]
        rw [h1]
        congr 2
        omega
      · simpa using h2

theorem copyNames_ok {l l' : List String} (h : copyNames l = .ok l') :
    l' = l ∧ ∀ a ∈ l, a.utf8ByteSize ≤ maxStr := by
  induction l generalizing l' with
  | nil =>
    rw [copyNames] at h
    cases h
    simp
  | cons a l ih =>
    rw [copyNames] at h
    simp only [Outcome.bind_eq_ok] at h
    obtain ⟨s, hs, ss, hss, h⟩ := h
    cases h
    obtain ⟨rfl, hle⟩ := copyName_ok hs
    obtain ⟨rfl, hall⟩ := ih hss
    refine ⟨rfl, ?_⟩
    intro b hb
    rcases List.mem_cons.mp hb with rfl | hb
    · exact hle
    · exact hall b hb

/-! ## The truth table -/

/-- The entries of one variable of a block. -/
def truthValue (S : Site) (b : Blk) (v : Var) : Bool :=
  (b.data v.spec.id (stepOf v.spec.temporal)).isSome
    || (v.spec.id == S.idField || v.spec.id == S.procField)

theorem truthEntries_eq {S : Site} {b : Blk} {v : Var} (ha : Allowed v) :
    truthEntries S b v = .ok (if v.spec.relation = .element then
      List.replicate v.components.length (truthValue S b v) else []) := by
  unfold truthEntries Allowed at *
  by_cases hr : v.spec.relation = .element
  · rw [if_pos hr, if_pos hr]
    simp only [truthValue, Var.components, List.length_map]
    generalize v.spec.length = l at ha ⊢
    cases l <;> simp [variableDimension, endings] at ha ⊢
  · rw [if_neg hr, if_neg hr]

theorem truthRow_eq {S : Site} {b : Blk} {vars : List Var} (ha : ∀ v ∈ vars, Allowed v) :
    truthRow S b vars = .ok ((vars.filter fun v => v.spec.relation = .element).flatMap fun v =>
      List.replicate v.components.length (truthValue S b v)) := by
  induction vars with
  | nil => rfl
  | cons v vs ih =>
    rw [truthRow, truthEntries_eq (ha v List.mem_cons_self),
      ih fun u hu => ha u (List.mem_cons_of_mem _ hu)]
    simp only [Outcome.ok_bind]
    by_cases hr : v.spec.relation = .element
    · simp [hr]
    · simp [hr]

theorem truthRows_eq {S : Site} {vars : List Var} (ha : ∀ v ∈ vars, Allowed v) (blocks : List Blk) :
    truthRows S vars blocks = .ok (blocks.flatMap fun b =>
      (vars.filter fun v => v.spec.relation = .element).flatMap fun v =>
        List.replicate v.components.length (truthValue S b v)) := by
  induction blocks with
  | nil => rfl
  | cons b bs ih =>
    rw [truthRows, truthRow_eq ha, ih]
    simp only [Outcome.ok_bind, List.flatMap_cons]

theorem truth_row_length (S : Site) (b : Blk) (vars : List Var) :
    ((vars.filter fun v => v.spec.relation = .element).flatMap fun v =>
      List.replicate v.components.length (truthValue S b v)).length =
        (kindNames .element vars).length := by
  simp [kindNames, List.length_flatMap]

theorem flatMap_get {α β : Type} (l : List α) (f : α → List β) (m : Nat)
    (hm : ∀ a ∈ l, (f a).length = m) (i k : Nat) (hi : i < l.length) (hk : k < m) :
    (l.flatMap f)[i * m + k]? = (f l[i])[k]? := by
  induction l generalizing i with
  | nil => exact absurd hi (Nat.not_lt_zero _)
  | cons a l ih =>
    have ha := hm a List.mem_cons_self
    rw [List.flatMap_cons]
    cases i with
    | zero =>
      rw [List.getElem?_append_left (by omega)]
      simp
    | succ i =>
      rw [List.getElem?_append_right (by rw [ha]; nlinarith [Nat.zero_le (i * m)]), ha,
        show (i + 1) * m + k - m = i * m + k by rw [Nat.add_mul]; omega,
        ih (fun x hx => hm x (List.mem_cons_of_mem _ hx)) i (by simpa using hi)]
      simp

theorem truth_position {S : Site} {b : Blk} {pre post : List Var} {v : Var}
    (hr : v.spec.relation = .element) {c : Nat} (hc : c < v.components.length) :
    (((pre ++ v :: post).filter fun v => v.spec.relation = .element).flatMap fun v =>
      List.replicate v.components.length (truthValue S b v))[(kindNames .element pre).length + c]? =
        some (truthValue S b v) := by
  rw [List.filter_append, List.flatMap_append, List.getElem?_append_right]
  · rw [truth_row_length, Nat.add_sub_cancel_left, List.filter_cons_of_pos (by simpa using hr),
      List.flatMap_cons, List.getElem?_append_left (by simpa using hc)]
    rw [List.getElem?_replicate, if_pos hc]
  · rw [truth_row_length]
    omega

end Verif.Exodus
