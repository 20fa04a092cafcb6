import Verif.Convert.Spec
import Verif.Mesh.ExodusProps
import Verif.Exodus.HeaderLemmas
import Verif.Exodus.DefinedLemmas

/-! Lemmas on the converter. -/

noncomputable section

namespace Verif.Convert

open Verif Verif.Mech Verif.Neigh Verif.Mesh
open Verif.Exodus (copyNames concatSets maxStr copyNames_ok copyNames_defined concatSets_get)
open scoped Classical

/-- The data of a point. -/
def Disc.data (d : Disc) (gid : Nat) : PointData := d.points.getD (d.ids.idxOf gid) ⟨0, 0, fun _ => 0⟩

theorem Disc.Sound.at {d : Disc} (h : d.Sound) {gid : Nat} (hg : gid ∈ d.ids) :
    d.points[d.ids.idxOf gid]? = some (d.data gid) := by
  have : d.ids.idxOf gid < d.points.length := by rw [h.points]; exact List.idxOf_lt_length_iff.2 hg
  rw [Disc.data, List.getD_eq_getElem?_getD, List.getElem?_eq_getElem this]
  rfl

theorem getElem?_idxOf {l : List Nat} {x : Nat} (h : x ∈ l) : l[l.idxOf x]? = some x := by
  rw [List.getElem?_eq_getElem (List.idxOf_lt_length_iff.2 h), List.getElem_idxOf]

theorem Disc.Sound.idx {d : Disc} (h : d.Sound) {k gid : Nat} (hk : d.ids[k]? = some gid) : d.ids.idxOf gid = k := by
  obtain ⟨hk', rfl⟩ := List.getElem?_eq_some_iff.mp hk
  exact h.nodup.idxOf_getElem k hk'

theorem holds_data {d : Disc} (h : d.Sound) {gid : Nat} (hg : gid ∈ d.ids) : Holds d gid (d.data gid) :=
  ⟨_, getElem?_idxOf hg, h.at hg⟩

theorem holds_iff {d : Disc} (h : d.Sound) {gid : Nat} {p : PointData} :
    Holds d gid p ↔ gid ∈ d.ids ∧ p = d.data gid := by
  constructor
  · rintro ⟨k, h1, h2⟩
    have hg : gid ∈ d.ids := List.mem_of_getElem? h1
    refine ⟨hg, ?_⟩
    have := h.at hg
    rw [h.idx h1, h2] at this
    exact Option.some.inj this
  · rintro ⟨h1, rfl⟩
    exact holds_data h h1

/-- Node numbers of the elements of a block. -/
def conn (d : Disc) (gs : List Nat) : List Nat := gs.map fun g => d.ids.idxOf g + 1

/-- Attributes of the elements of a block. -/
def attrs (d : Disc) (gs : List Nat) : List ℝ := gs.flatMap fun g => [cbrt (d.data g).volume, (d.data g).volume]

theorem elementData_ok {d : Disc} (h : d.Sound) {gs : List Nat} (hg : ∀ g ∈ gs, g ∈ d.ids) :
    elementData d gs = .ok (conn d gs, attrs d gs) := by
  induction gs with
  | nil => rfl
  | cons g gs ih =>
    have h1 : g ∈ d.ids := hg g List.mem_cons_self
    rw [elementData, lidOf, if_pos h1]
    simp only [Outcome.ok_bind]
    rw [readAt_eq_ok.2 (h.at h1)]
    simp only [Outcome.ok_bind]
    rw [ih fun x hx => hg x (List.mem_cons_of_mem _ hx)]
    rfl

theorem conn_get (d : Disc) {gs : List Nat} {e gid : Nat} (h : gs[e]? = some gid) :
    (conn d gs)[e]? = some (d.ids.idxOf gid + 1) := by
  rw [conn, List.getElem?_map, h]
  rfl

theorem attrs_get (d : Disc) {gs : List Nat} {e gid : Nat} (h : gs[e]? = some gid) :
    (attrs d gs)[e * 2]? = some (cbrt (d.data gid).volume) ∧
    (attrs d gs)[e * 2 + 1]? = some (d.data gid).volume := by
  induction gs generalizing e with
  | nil => simp at h
  | cons g gs ih =>
    rw [attrs, List.flatMap_cons]
    cases e with
    | zero =>
      simp at h
      subst h
      simp
    | succ e =>
      obtain ⟨i1, i2⟩ := ih (e := e) (by simpa using h)
      rw [show (e + 1) * 2 = e * 2 + 1 + 1 by ring, show e * 2 + 1 + 1 + 1 = (e * 2 + 1) + 1 + 1 by ring]
      simp only [List.cons_append, List.nil_append, List.getElem?_cons_succ]
      exact ⟨i1, i2⟩

theorem attrs_length (d : Disc) (gs : List Nat) : (attrs d gs).length = gs.length * 2 := by
  induction gs with
  | nil => rfl
  | cons g gs ih =>
    rw [attrs, List.flatMap_cons, List.length_append, List.length_cons (as := gs)]
    change 2 + (attrs d gs).length = _
    rw [ih]
    omega

/-- The record of a block. -/
def record (d : Disc) (b : String × List Nat) (id : ℤ) : ElemBlock :=
  ⟨id, b.1, "SPHERE", b.2.length, 1, conn d b.2, 2, attrs d b.2⟩

theorem putBlocks_ok {d : Disc} (h : d.Sound) : ∀ {bs : List (String × List Nat)} {ids : List ℤ},
    (∀ b ∈ bs, ∀ g ∈ b.2, g ∈ d.ids) → putBlocks d bs ids (bs.map Prod.fst) = .ok (List.zipWith (record d) bs ids)
  | [], _, _ => by simp [putBlocks]
  | b :: bs, [], _ => by simp [putBlocks]
  | b :: bs, id :: ids, hb => by
    rw [List.map_cons, putBlocks, elementData_ok h (hb b List.mem_cons_self)]
    simp only [Outcome.ok_bind]
    rw [putBlocks_ok h fun x hx => hb x (List.mem_cons_of_mem _ hx)]
    rfl

theorem declareBlocks_ok : ∀ {bs : List (String × List Nat)} {taken ids : List ℤ},
    declareBlocks bs taken = .ok ids →
      List.Forall₂ (fun (b : String × List Nat) id => Params.blockNameToBlockId b.1.toList = .ok id) bs ids ∧
      (taken.Nodup → (taken ++ ids).Nodup)
  | [], taken, ids, h => by
    rw [declareBlocks] at h
    cases h
    simp
  | (name, gs) :: bs, taken, ids, h => by
    rw [declareBlocks] at h
    obtain ⟨id, h1, h⟩ := Outcome.bind_eq_ok.mp h
    by_cases ht : id ∈ taken
    · rw [if_pos ht] at h
      cases h
    rw [if_neg ht] at h
    obtain ⟨rest, h2, h⟩ := Outcome.bind_eq_ok.mp h
    cases h
    obtain ⟨i1, i2⟩ := declareBlocks_ok h2
    refine ⟨.cons h1 i1, fun hn => ?_⟩
    have := i2 (List.nodup_append.2 ⟨hn, by simp, by
      intro a ha b hb
      rw [List.mem_singleton] at hb
      subst hb
      rintro rfl
      exact ht ha⟩)
    rwa [List.append_assoc] at this

theorem declareBlocks_defined : ∀ {bs : List (String × List Nat)} {taken ids : List ℤ},
    List.Forall₂ (fun (b : String × List Nat) id => Params.blockNameToBlockId b.1.toList = .ok id) bs ids →
      (taken ++ ids).Nodup → declareBlocks bs taken = .ok ids
  | [], taken, ids, h, _ => by
    cases h
    rfl
  | (name, gs) :: bs, taken, _, .cons h1 h2, hn => by
    rw [declareBlocks, h1]
    simp only [Outcome.ok_bind]
    rw [if_neg, declareBlocks_defined h2]
    · rfl
    · rw [List.append_assoc]
      exact hn
    · intro hm
      exact (List.nodup_append.1 hn).2.2 _ hm _ List.mem_cons_self rfl

theorem declareBlocks_taken : ∀ {bs : List (String × List Nat)} {taken ids : List ℤ},
    List.Forall₂ (fun (b : String × List Nat) id => Params.blockNameToBlockId b.1.toList = .ok id) bs ids →
      taken.Nodup → ¬ (taken ++ ids).Nodup → declareBlocks bs taken = .fail .terminate
  | [], taken, ids, h, h1, h2 => by
    cases h
    simp [h1] at h2
  | (name, gs) :: bs, taken, _, .cons (b := id) h1 h2, hn, hd => by
    rw [declareBlocks, h1]
    simp only [Outcome.ok_bind]
    by_cases ht : id ∈ taken
    · rw [if_pos ht]
    rw [if_neg ht, declareBlocks_taken h2]
    · rfl
    · refine List.nodup_append.2 ⟨hn, by simp, ?_⟩
      intro a ha b hb
      rw [List.mem_singleton] at hb
      subst hb
      rintro rfl
      exact ht ha
    · rw [List.append_assoc]
      exact hd

/-- All ids, in the order of the blocks. -/
def Disc.order (d : Disc) : List Nat := (d.blocks.map Prod.snd).flatten

theorem order_map (d : Disc) : (d.blocks.flatMap fun b => b.2.map (· + 1)) = d.order.map (· + 1) := by
  rw [Disc.order, List.map_flatten, List.map_map, List.flatMap]
  rfl

theorem putElemMap_ok {d : Disc} (h : d.Sound) : putElemMap d = .ok (d.order.map (· + 1)) := by
  have hl : (d.order.map (· + 1)).length = d.ids.length := by
    rw [List.length_map]
    exact h.divided.length_eq
  rw [putElemMap]
  rw [order_map, if_pos (le_of_eq hl), hl, Nat.sub_self, List.replicate_zero, List.append_nil]

theorem mem_order {d : Disc} (h : d.Sound) {gid : Nat} : gid ∈ d.order ↔ gid ∈ d.ids := h.divided.mem_iff

theorem mem_ids_of_block {d : Disc} (h : d.Sound) {b : String × List Nat} (hb : b ∈ d.blocks) {g : Nat} (hg : g ∈ b.2) :
    g ∈ d.ids := by
  rw [← mem_order h, Disc.order, List.mem_flatten]
  exact ⟨_, List.mem_map_of_mem hb, hg⟩

/-- The node set records. -/
def setRecords (sets : List (String × List Nat)) : List NodeSet :=
  let c := concatSets (sets.map fun s => (s.1, s.2.map (· + 1))) 0 0
  List.zipWith (fun name (r : Nat × Nat × Nat) => (⟨r.1, name, (c.2.drop r.2.2).take r.2.1⟩ : NodeSet))
    (sets.map Prod.fst) c.1

theorem concatSets_length (l : List (String × List Nat)) (k o : Nat) : (concatSets l k o).1.length = l.length := by
  induction l generalizing k o with
  | nil => rfl
  | cons a l ih =>
    obtain ⟨n, s⟩ := a
    rw [concatSets]
    simp [ih]

theorem setRecords_eq (sets : List (String × List Nat)) :
    List.Forall₂ (fun (s : String × List Nat) (r : NodeSet) => r.name = s.1 ∧ r.nodes = s.2.map (· + 1)) sets
      (setRecords sets) := by
  rw [List.forall₂_iff_get]
  have hl : sets.length = (setRecords sets).length := by
    rw [setRecords]
    simp [concatSets_length]
  refine ⟨hl, fun i h1 h2 => ?_⟩
  obtain ⟨first, e1, e2⟩ := concatSets_get (l := sets.map fun s => (s.1, s.2.map (· + 1))) (k0 := 0) (offset := 0)
    (done := []) rfl (k := i) (name := sets[i].1) (s := sets[i].2.map (· + 1)) (by
      rw [List.getElem?_map, List.getElem?_eq_getElem h1]
      rfl)
  have hc : (setRecords sets)[i]? = some ⟨((i : Nat) + 1 : Nat), sets[i].1, sets[i].2.map (· + 1)⟩ := by
    rw [setRecords]
    rw [List.getElem?_zipWith, e1, List.getElem?_map, List.getElem?_eq_getElem h1]
    simp only [Option.map_some, List.nil_append] at e2 ⊢
    rw [e2, Nat.zero_add]
  rw [List.getElem?_eq_getElem h2] at hc
  have hc := Option.some.inj hc
  rw [List.get_eq_getElem, List.get_eq_getElem, hc]
  exact ⟨rfl, rfl⟩

theorem putNodeSets_ok {own layers : List (String × List Nat)} {r : List NodeSet}
    (h : putNodeSets own layers = .ok r) :
    r = setRecords (own ++ layers) ∧ ∀ s ∈ own ++ layers, s.1.utf8ByteSize ≤ maxStr := by
  rw [putNodeSets] at h
  by_cases hp : 0 < own.length + layers.length
  · rw [if_pos hp] at h
    obtain ⟨names, h1, h⟩ := Outcome.bind_eq_ok.mp h
    obtain ⟨rfl, h2⟩ := copyNames_ok h1
    have h := Outcome.ok.inj h
    refine ⟨?_, ?_⟩
    · rw [← h, setRecords, List.map_append, List.map_append]
    · intro s hs
      apply h2
      rw [← List.map_append]
      exact List.mem_map_of_mem hs
  · rw [if_neg hp] at h
    have h := Outcome.ok.inj h
    have h1 : own = [] := List.eq_nil_of_length_eq_zero (by omega)
    have h2 : layers = [] := List.eq_nil_of_length_eq_zero (by omega)
    subst h1 h2
    simp [← h, setRecords]

theorem putNodeSets_defined {own layers : List (String × List Nat)}
    (h : ∀ s ∈ own ++ layers, s.1.utf8ByteSize ≤ maxStr) :
    putNodeSets own layers = .ok (setRecords (own ++ layers)) := by
  rw [putNodeSets]
  by_cases hp : 0 < own.length + layers.length
  · rw [if_pos hp, copyNames_defined]
    · simp only [Outcome.ok_bind]
      rw [setRecords, List.map_append, List.map_append]
    · rw [← List.map_append]
      intro a ha
      obtain ⟨s, hs, rfl⟩ := List.mem_map.1 ha
      exact h s hs
  · rw [if_neg hp]
    have h1 : own = [] := List.eq_nil_of_length_eq_zero (by omega)
    have h2 : layers = [] := List.eq_nil_of_length_eq_zero (by omega)
    subst h1 h2
    simp [setRecords, concatSets]

/-- The file, when there is one. -/
theorem convert_ok {p : Params} {d : Disc} (h : d.Sound) {g : Genesis} (hc : convert p d = .ok g) :
    ∃ ids, List.Forall₂ (fun (b : String × List Nat) id => Params.blockNameToBlockId b.1.toList = .ok id) d.blocks ids ∧
      ids.Nodup ∧ d.blocks ≠ [] ∧ (∀ b ∈ d.blocks, b.1.utf8ByteSize ≤ maxStr) ∧
      (∀ s ∈ d.sets ++ layerSets p.layer (d.points.map PointData.x), s.1.utf8ByteSize ≤ maxStr) ∧
      g = ⟨putCoords p.scale (d.points.map PointData.x), d.ids.map (· + 1), d.order.map (· + 1), [], [],
        List.zipWith (record d) d.blocks ids,
        setRecords (d.sets ++ layerSets p.layer (d.points.map PointData.x))⟩ := by
  rw [convert] at hc
  obtain ⟨sets, h1, hc⟩ := Outcome.bind_eq_ok.mp hc
  obtain ⟨rfl, h2⟩ := putNodeSets_ok h1
  obtain ⟨ids, h3, hc⟩ := Outcome.bind_eq_ok.mp hc
  obtain ⟨h4, h5⟩ := declareBlocks_ok h3
  by_cases hb : d.blocks.length < 1
  · rw [if_pos hb] at hc
    cases hc
  rw [if_neg hb] at hc
  obtain ⟨names, h6, hc⟩ := Outcome.bind_eq_ok.mp hc
  obtain ⟨rfl, h7⟩ := copyNames_ok h6
  rw [putBlocks_ok h fun b hb g hg => mem_ids_of_block h hb hg] at hc
  simp only [Outcome.ok_bind] at hc
  rw [putElemMap_ok h] at hc
  simp only [Outcome.ok_bind] at hc
  refine ⟨ids, h4, by simpa using h5 List.nodup_nil, ?_, ?_, h2, (Outcome.ok.inj hc).symm⟩
  · intro h0
    rw [h0] at hb
    simp at hb
  · exact fun b hb => h7 _ (List.mem_map_of_mem hb)

theorem convert_defined {p : Params} {d : Disc} (h : d.Sound) {ids : List ℤ}
    (h1 : List.Forall₂ (fun (b : String × List Nat) id => Params.blockNameToBlockId b.1.toList = .ok id) d.blocks ids)
    (h2 : ids.Nodup) (h3 : d.blocks ≠ []) (h4 : ∀ b ∈ d.blocks, b.1.utf8ByteSize ≤ maxStr)
    (h5 : ∀ s ∈ d.sets ++ layerSets p.layer (d.points.map PointData.x), s.1.utf8ByteSize ≤ maxStr) :
    ∃ g, convert p d = .ok g := by
  rw [convert, putNodeSets_defined h5]
  simp only [Outcome.ok_bind]
  rw [declareBlocks_defined (taken := []) h1 (by simpa using h2)]
  simp only [Outcome.ok_bind]
  have hb : ¬ d.blocks.length < 1 := by
    have := List.length_pos_iff.2 h3
    omega
  rw [if_neg hb, copyNames_defined (by
    intro a ha
    obtain ⟨b, hb, rfl⟩ := List.mem_map.1 ha
    exact h4 b hb)]
  simp only [Outcome.ok_bind]
  rw [putBlocks_ok h fun b hb g hg => mem_ids_of_block h hb hg]
  simp only [Outcome.ok_bind]
  rw [putElemMap_ok h]
  exact ⟨_, rfl⟩

end Verif.Convert
