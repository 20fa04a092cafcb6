import Verif.Mesh.GhostSpec
import Verif.Mesh.IntersectProps

/-! Lemmas for C246. -/

noncomputable section

namespace Verif.Mesh

open Verif Verif.Mech Verif.Neigh Verif.Redist
open scoped Classical

/-- The vectors of a stored mesh are those of the elements and nodes that it has. -/
structure Tabled (m : StoredMesh) (conn : Nat → List Nat) (pos : Nat → V3) : Prop where
  elems : m.elems.Nodup
  sizes : m.sizes = m.elems.map fun g => (conn g).length
  conn : m.conn = m.elems.flatMap conn
  nodes : m.nodes.Nodup
  positions : m.positions = m.nodes.map pos

theorem split_at {α : Type} {l : List α} {k : Nat} {a : α} (h : l[k]? = some a) :
    l = l.take k ++ a :: l.drop (k + 1) := by
  obtain ⟨hk, hg⟩ := List.getElem?_eq_some_iff.1 h
  conv_lhs => rw [← List.take_append_drop k l, List.drop_eq_getElem_cons hk, hg]

/-- The part of a concatenation that belongs to one of its pieces. -/
theorem flatMap_block {α : Type} (f : Nat → List α) {l : List Nat} {k gid : Nat} (h : l[k]? = some gid) :
    ((l.flatMap f).drop ((l.map fun g => (f g).length).take k).sum).take (f gid).length = f gid := by
  have e : l.flatMap f = (l.take k).flatMap f ++ (f gid ++ (l.drop (k + 1)).flatMap f) := by
    conv_lhs => rw [split_at h, List.flatMap_append, List.flatMap_cons]
  have hs : ((l.map fun g => (f g).length).take k).sum = ((l.take k).flatMap f).length := by
    rw [List.length_flatMap, ← List.map_take]
  rw [e, hs, List.drop_left, List.take_left]

theorem idx_get {l : List Nat} {gid : Nat} (h : gid ∈ l) : l[l.idxOf gid]? = some gid := by
  rw [List.getElem?_eq_getElem (List.idxOf_lt_length_of_mem h), List.getElem_idxOf]

/-- An element is taken from a vector that is a concatenation by ids. -/
theorem importElement_eq {α : Type} {srcs : DistMV α} {q gid : Nat} {ids : List Nat} (f : Nat → List α)
    (hq : srcs[q]? = some ⟨⟨ids, ids.map fun g => (f g).length⟩, [ids.flatMap f]⟩) (hg : gid ∈ ids) :
    importElement srcs q 0 gid = some (f gid) := by
  unfold importElement BlockMap.lid
  simp only [hq, if_pos hg, List.getElem?_cons_zero, List.getElem?_map, idx_get hg, Option.map_some]
  exact congrArg some (flatMap_block f (idx_get hg))

theorem importColumn_eq {α : Type} {pick : Nat → Nat} {srcs : DistMV α} {tm : BlockMap} {old : List α}
    (f : Nat → List α) (h : ∀ gid ∈ tm.gids, importElement srcs (pick gid) 0 gid = some (f gid)) :
    importColumn pick srcs 0 tm old = tm.gids.flatMap f := by
  unfold importColumn
  rw [List.flatMap_def]
  congr 1
  apply List.ext_getElem
  · simp
  · intro i h1 h2
    simp only [List.getElem_mapIdx, List.getElem_map]
    rw [h _ (List.getElem_mem _)]

theorem const_map (ids : List Nat) {α : Type} (f : Nat → α) :
    (⟨BlockMap.const ids 1, [ids.map f]⟩ : MultiVec α) =
      ⟨⟨ids, ids.map fun g => ([f g] : List α).length⟩, [ids.flatMap fun g => [f g]]⟩ := by
  have : ids.map f = ids.flatMap fun g => [f g] := by
    induction ids with
    | nil => rfl
    | cons a l ih => rw [List.map_cons, ih]; rfl
  rw [this]
  rfl

theorem flatMap_single {α : Type} (ids : List Nat) (f : Nat → α) : (ids.flatMap fun g => [f g]) = ids.map f := by
  induction ids with
  | nil => rfl
  | cons a l ih => rw [List.map_cons, ← ih]; rfl

/-- The source of an import. -/
theorem picked {pick : Nat → Nat} {ms : List StoredMesh} (sel : StoredMesh → List Nat)
    (hp : Picks pick (ms.map sel)) {gid : Nat} (hg : ∃ m ∈ ms, gid ∈ sel m) :
    ∃ m ∈ ms, ms[pick gid]? = some m ∧ gid ∈ sel m := by
  obtain ⟨m, hm, hgm⟩ := hg
  obtain ⟨l, hl, hgl⟩ := hp gid ⟨sel m, List.mem_map_of_mem hm, hgm⟩
  rw [List.getElem?_map] at hl
  obtain ⟨m', hm', rfl⟩ := Option.map_eq_some_iff.1 hl
  exact ⟨m', List.mem_of_getElem? hm', hm', hgl⟩

theorem ghostPart_eq {ms : List StoredMesh} {conn : Nat → List Nat} {pos : Nat → V3} (ht : ∀ m ∈ ms, Tabled m conn pos)
    (hn : ∀ m ∈ ms, ∀ g ∈ m.elems, conn g ≠ [] ∧ ∀ n ∈ conn g, n ∈ m.nodes) {ps pc pn : Nat → Nat}
    (h1 : Picks ps (ms.map (·.elems))) (h2 : Picks pc (ms.map (·.elems))) (h3 : Picks pn (ms.map (·.nodes)))
    {ov : List Nat} (ho : ov.Nodup) (hov : ∀ g ∈ ov, ∃ m ∈ ms, g ∈ m.elems) :
    ∃ m', ghostPart ps pc pn ms ov = .ok m' ∧ Tabled m' conn pos ∧ m'.elems = ov ∧ m'.nodes.Pairwise (· < ·) ∧
      ∀ n, n ∈ m'.nodes ↔ ∃ g ∈ ov, n ∈ conn g := by
  have hsizes : ghostSizes ps ms ov = ov.map fun g => (conn g).length := by
    unfold ghostSizes
    rw [importColumn_eq fun g => [(conn g).length], ← flatMap_single]
    · rfl
    · intro gid hg
      obtain ⟨m, hm, hq, hgm⟩ := picked _ h1 (hov gid hg)
      refine importElement_eq (fun g => [(conn g).length]) ?_ hgm
      rw [List.getElem?_map, hq, Option.map_some, (ht m hm).sizes, const_map]
  have hconn : ghostConn pc ms ov (ov.map fun g => (conn g).length) =
      ov.flatMap fun g => (conn g).map Int.ofNat := by
    unfold ghostConn
    rw [importColumn_eq fun g => (conn g).map Int.ofNat]
    intro gid hg
    obtain ⟨m, hm, hq, hgm⟩ := picked _ h2 (hov gid hg)
    refine importElement_eq (fun g => (conn g).map Int.ofNat) ?_ hgm
    rw [List.getElem?_map, hq, Option.map_some, (ht m hm).sizes, (ht m hm).conn, List.map_flatMap]
    simp only [List.length_map]
  have hids : (ov.flatMap fun g => (conn g).map Int.ofNat).map Int.toNat = ov.flatMap conn := by
    rw [List.map_flatMap]
    congr 1
    funext g
    rw [List.map_map, show Int.toNat ∘ Int.ofNat = id from rfl, List.map_id]
  set nodes := sortIds (sortUnique (ov.flatMap conn)) with hnodes
  have hmem : ∀ n, n ∈ nodes ↔ ∃ g ∈ ov, n ∈ conn g := by
    intro n
    rw [hnodes, mem_sortIds, mem_sortUnique, List.mem_flatMap]
  have hnd : nodes.Nodup := by
    rw [hnodes, (sortIds_perm _).nodup_iff]
    exact nodup_sortUnique _
  have hsorted : nodes.Pairwise (· < ·) := by
    have hs := sorted_sortIds (sortUnique (ov.flatMap conn))
    rw [← hnodes] at hs
    exact (hs.and hnd).imp fun h => lt_of_le_of_ne h.1 h.2
  have hpos : ghostPositions pn ms nodes = nodes.map pos := by
    unfold ghostPositions
    rw [importColumn_eq fun n => [pos n], ← flatMap_single]
    · rfl
    · intro n hn'
      obtain ⟨g, hg, hng⟩ := (hmem n).1 hn'
      obtain ⟨m0, hm0, hgm⟩ := hov g hg
      obtain ⟨m, hm, hq, hgm⟩ := picked _ h3 ⟨m0, hm0, (hn m0 hm0 g hgm).2 n hng⟩
      refine importElement_eq (fun n => [pos n]) ?_ hgm
      rw [List.getElem?_map, hq, Option.map_some, (ht m hm).positions, const_map]
  refine ⟨⟨ov, ov.map fun g => (conn g).length, ov.flatMap conn, nodes, nodes.map pos⟩, ?_, ?_, rfl, hsorted, hmem⟩
  · unfold ghostPart
    simp only [hsizes]
    rw [if_neg, hconn, if_neg, hids, ← hnodes, hpos]
    · rintro ⟨c, hc, hneg⟩
      obtain ⟨g, -, hc⟩ := List.mem_flatMap.1 hc
      obtain ⟨n, -, rfl⟩ := List.mem_map.1 hc
      exact absurd hneg (not_lt.2 (Int.natCast_nonneg n))
    · intro h
      obtain ⟨g, hg, h0⟩ := List.mem_map.1 h
      obtain ⟨m, hm, hgm⟩ := hov g hg
      exact (hn m hm g hgm).1 (List.eq_nil_of_length_eq_zero h0)
  · exact ⟨ho, rfl, rfl, hnd, rfl⟩

theorem positionsOf_tabled {m : StoredMesh} {conn : Nat → List Nat} {pos : Nat → V3} (ht : Tabled m conn pos)
    (l : List Nat) (hl : ∀ n ∈ l, n ∈ m.nodes) : positionsOf m l = .ok (l.map pos) := by
  induction l with
  | nil => rfl
  | cons n l ih =>
      have hn := hl n (by simp)
      rw [positionsOf, lid_self ht.nodes (idx_get hn)]
      simp only [Outcome.ok_bind]
      rw [ht.positions, readAt_eq_ok.2 (show (m.nodes.map pos)[m.nodes.idxOf n]? = some (pos n) by
        rw [List.getElem?_map, idx_get hn]; rfl)]
      simp only [Outcome.ok_bind]
      rw [ih fun a ha => hl a (List.mem_cons_of_mem _ ha)]
      rfl

theorem exodusNodes_tabled {m : StoredMesh} {conn : Nat → List Nat} {pos : Nat → V3} (ht : Tabled m conn pos) {gid : Nat}
    (hg : gid ∈ m.elems) (hn : ∀ n ∈ conn gid, n ∈ m.nodes) : exodusNodes m gid = .ok ((conn gid).map pos) := by
  have hk := idx_get hg
  rw [exodusNodes, if_neg (not_not.2 hg), lid_self ht.elems hk]
  simp only [Outcome.ok_bind]
  rw [readAt_eq_ok.2 (show m.sizes[m.elems.idxOf gid]? = some (conn gid).length by
    rw [ht.sizes, List.getElem?_map, hk]; rfl)]
  simp only [Outcome.ok_bind]
  have : readIds m.conn (m.sizes.take (m.elems.idxOf gid)).sum (conn gid).length = .ok (conn gid) := by
    rw [ht.conn, ht.sizes, show m.elems.flatMap conn = (m.elems.take (m.elems.idxOf gid)).flatMap conn ++
      (conn gid ++ (m.elems.drop (m.elems.idxOf gid + 1)).flatMap conn) by
        conv_lhs => rw [split_at hk, List.flatMap_append, List.flatMap_cons]]
    apply readIds_mid
    · rw [List.length_flatMap, ← List.map_take]
    · rfl
  rw [this]
  simp only [Outcome.ok_bind]
  exact positionsOf_tabled ht _ hn

/-- What is stored for a part of the mesh. -/
theorem storeMesh_tabled {ps : List Piece} {conn : Nat → List Nat} {pos : Nat → V3} (h : PartsOf ps conn pos) {p : Piece}
    (hp : p ∈ ps) : ∃ m, storeMesh p.file p.elems p.nodes = .ok m ∧ Tabled m conn pos ∧ m.elems = p.elems ∧
      m.nodes = p.nodes ∧ ∀ g ∈ p.elems, conn g ≠ [] ∧ ∀ n ∈ conn g, n ∈ p.nodes := by
  have wf := h.wellFormed p hp
  have hlen := h.length p hp
  have hnodes : ∀ b ∈ p.file.blocks, ∀ e < b.numElem, ∀ i < b.nodesPerElem,
      ∃ c, HasNode b e i c ∧ c < p.nodes.length := by
    rw [hlen]; exact wf.nodes
  have key : ∀ (k gid : Nat) (t : ElemBlock × Nat), p.elems[k]? = some gid →
      (elements p.file.blocks)[k]? = some t →
      conn gid = connOf p.nodes t ∧ (conn gid).length = t.1.nodesPerElem ∧ conn gid ≠ [] ∧
        ∀ n ∈ conn gid, n ∈ p.nodes := by
    rintro k gid ⟨b, e⟩ hk ht
    obtain ⟨hb, he⟩ := mem_elements (List.mem_of_getElem? ht)
    obtain ⟨hl, hpos⟩ := h.conn_length p hp k gid b e hk ht
    have heq : conn gid = connOf p.nodes (b, e) := by
      apply List.ext_getElem?
      intro i
      by_cases hi : i < b.nodesPerElem
      · obtain ⟨c, h1, h2⟩ := hnodes b hb e he i hi
        rw [h.conn_node p hp k gid b e hk ht i c h1, nodeGid_eq h1 h2, connOf, List.getElem?_map,
          List.getElem?_range' (by simpa using hi)]
        simp
      · rw [List.getElem?_eq_none (by omega), List.getElem?_eq_none (by simp [connOf]; omega)]
    refine ⟨heq, hl, ?_, ?_⟩
    · intro h0
      rw [h0] at hl
      simp at hl
      omega
    · intro n hn
      rw [heq, connOf] at hn
      obtain ⟨i, hi, rfl⟩ := List.mem_map.1 hn
      obtain ⟨c, h1, h2⟩ := hnodes b hb e he i (by simpa using hi)
      exact List.mem_of_getElem? (nodeGid_eq h1 h2)
  have hz : ∀ {α : Type} (f : ElemBlock × Nat → α) (f' : Nat → α),
      (∀ (k gid : Nat) (t : ElemBlock × Nat), p.elems[k]? = some gid → (elements p.file.blocks)[k]? = some t → f t = f' gid) →
      (elements p.file.blocks).map f = p.elems.map f' := by
    intro α f f' hf
    apply List.ext_getElem
    · simp [wf.length]
    · intro k h1 h2
      simp only [List.getElem_map]
      rw [List.length_map] at h1 h2
      exact hf k _ _ (List.getElem?_eq_getElem h2) (List.getElem?_eq_getElem h1)
  refine ⟨⟨p.elems, (elements p.file.blocks).map fun t => t.1.nodesPerElem,
    (elements p.file.blocks).flatMap (connOf p.nodes), p.nodes, p.file.coords⟩, ?_, ⟨wf.nodup, ?_, ?_, h.nodup p hp, ?_⟩,
    rfl, rfl, ?_⟩
  · rw [storeMesh, connBlocks_eq p.file.blocks hnodes, sizes_eq]
    rfl
  · exact hz _ _ fun k gid t hk ht => (key k gid t hk ht).2.1.symm
  · simp only [List.flatMap_def]
    rw [hz _ conn fun k gid t hk ht => (key k gid t hk ht).1.symm]
  · apply List.ext_getElem
    · simp [hlen]
    · intro c h1 h2
      simp only [List.getElem_map]
      have h1 : c < p.file.coords.length := h1
      have h2 : c < p.nodes.length := by rw [hlen]; exact h1
      have := h.pos_eq p hp c _ (List.getElem?_eq_getElem h2)
      rw [List.getElem?_eq_getElem h1] at this
      exact Option.some.inj this
  · intro g hg
    have hk := idx_get hg
    have hlt : p.elems.idxOf g < (elements p.file.blocks).length := by
      rw [← wf.length]; exact List.idxOf_lt_length_of_mem hg
    exact (key _ g _ hk (List.getElem?_eq_getElem hlt)).2.2

/-! ### Equal functions of the elements -/

theorem allOk_congr {α β γ : Type} {f : α → Outcome γ} {g : β → Outcome γ} {l : List α} {l' : List β}
    (h : List.Forall₂ (fun a b => f a = g b) l l') : allOk f l = allOk g l' := by
  induction h with
  | nil => rfl
  | cons hab _ ih => rw [allOk, allOk, hab, ih]

theorem elementDimension_congr {f g : Nat → Outcome (List V3)} {own : List Nat} (h : ∀ k ∈ own, f k = g k) (m : ℝ) :
    own.foldlM (elementDimension f) m = own.foldlM (elementDimension g) m := by
  induction own generalizing m with
  | nil => rfl
  | cons k own ih =>
      rw [List.foldlM_cons, List.foldlM_cons, elementDimension, elementDimension, h k (by simp)]
      congr 1
      funext m
      exact ih (fun k hk => h k (List.mem_cons_of_mem _ hk)) m

theorem localDimension_congr {f g : Nat → Outcome (List V3)} {own : List Nat} (h : ∀ k ∈ own, f k = g k) :
    localDimension f own = localDimension g own := by
  rw [localDimension, localDimension, elementDimension_congr h]

theorem keepNeighbors_congr {f g : Nat → Outcome (List V3)} {x : Nat → V3} {h : Nat → ℝ} {owned : List Nat} {elem : Nat}
    {gids : List Nat} (hfg : ∀ k ∈ gids, f k = g k) :
    keepNeighbors f x h owned elem gids = keepNeighbors g x h owned elem gids := by
  induction gids with
  | nil => rfl
  | cons k gids ih =>
      rw [keepNeighbors, keepNeighbors, hfg k (by simp), ih fun a ha => hfg a (List.mem_cons_of_mem _ ha)]

theorem gidsOf_mem {ov lids gids : List Nat} (h : Neigh.gidsOf ov lids = .ok gids) : ∀ g ∈ gids, g ∈ ov := by
  induction lids generalizing gids with
  | nil =>
      have := Outcome.ok.inj h
      subst this
      simp
  | cons l lids ih =>
      rw [Neigh.gidsOf] at h
      cases h1 : readAt ov l with
      | fail e => rw [h1] at h; cases h
      | ub => rw [h1] at h; cases h
      | ok a =>
          rw [h1] at h
          cases h2 : Neigh.gidsOf ov lids with
          | fail e => rw [h2] at h; cases h
          | ub => rw [h2] at h; cases h
          | ok as =>
              rw [h2] at h
              have := Outcome.ok.inj h
              subst this
              intro g hg
              rcases List.mem_cons.1 hg with rfl | hg
              · exact List.mem_of_getElem? (readAt_eq_ok.1 h1)
              · exact ih h2 g hg

theorem refineLoop_congr {f g : Nat → Outcome (List V3)} {x : Nat → V3} {h : Nat → ℝ} {c : NbPart}
    (hfg : ∀ k ∈ c.overlap, f k = g k) (fuel pos elem : Nat) :
    refineLoop f x h c fuel pos elem = refineLoop g x h c fuel pos elem := by
  induction fuel generalizing pos elem with
  | zero => rfl
  | succ fuel ih =>
      rw [refineLoop, refineLoop]
      split_ifs with hp
      · congr 1
        funext k
        congr 1
        funext lids
        cases hg : Neigh.gidsOf c.overlap lids with
        | fail e => rfl
        | ub => rfl
        | ok gids =>
            simp only [Outcome.ok_bind]
            rw [keepNeighbors_congr fun k hk => hfg k (gidsOf_mem hg k hk), ih]
      · rfl

theorem removeNonintersecting_congr {f g : Nat → Outcome (List V3)} {x : Nat → V3} {h : Nat → ℝ} {c : NbPart}
    (hfg : ∀ k ∈ c.overlap, f k = g k) : removeNonintersecting f x h c = removeNonintersecting g x h c := by
  rw [removeNonintersecting, removeNonintersecting, refineLoop_congr hfg]

end Verif.Mesh
