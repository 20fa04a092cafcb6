import Verif.Touch.Spec
import Verif.Contact.RebalanceLemmas
import Verif.Neigh.Blocks

/-! Closed forms of the contact blocks. -/

noncomputable section

namespace Verif.Touch

open Verif Verif.Mech Verif.Neigh Verif.Contact
open scoped Classical

/-- The points a processor owns, with their contact neighbors. -/
def pts (W : World) (cn : Nat → List Nat) (owned : List Nat) : List Pt :=
  owned.map fun g => ⟨g, cn g, W.block g⟩

theorem pts_gid (W : World) (cn : Nat → List Nat) (owned : List Nat) : (pts W cn owned).map Pt.gid = owned := by
  simp [pts, Function.comp_def]

theorem pts_block (W : World) (cn : Nat → List Nat) (owned : List Nat) :
    (pts W cn owned).map Pt.block = owned.map W.block := by
  simp [pts, Function.comp_def]

theorem pts_nbrs (W : World) (cn : Nat → List Nat) (owned : List Nat) :
    (pts W cn owned).map Pt.nbrs = owned.map cn := by
  simp [pts, Function.comp_def]

/-- The maps and lists behind contact blocks, in closed form. -/
def discFor (T : List Pt) (ov ids : List Nat) : Disc :=
  ⟨T.map Pt.gid, ov, ⟨ids, encode (T.map fun t => t.nbrs.map ov.idxOf), offsets (T.map Pt.nbrs)⟩⟩

theorem blockLists_disc (T : List Pt) (hT : (T.map Pt.gid).Nodup) (O gh o : List Nat) (hO : O = T.map Pt.gid ++ gh)
    (hnb : ∀ t ∈ T, ∀ g ∈ t.nbrs, g ∈ O) (ov : List Nat) (S : List Pt)
    (hS : ∀ t ∈ S, t ∈ T ∧ t.gid ∈ ov ∧ ∀ g ∈ t.nbrs, g ∈ ov) (ids acc ptr : List Nat) :
    blockLists (discFor T O o) ov (S.map Pt.gid) ids acc ptr =
      .ok ⟨ids ++ S.map (fun t => ov.idxOf t.gid),
        acc ++ encode (S.map fun t => t.nbrs.map ov.idxOf),
        ptr ++ offsetsFrom acc.length (S.map Pt.nbrs)⟩ := by
  induction S generalizing ids acc ptr with
  | nil => simp [blockLists, offsetsFrom]
  | cons t S ih =>
    obtain ⟨htT, hto, htn⟩ := hS t List.mem_cons_self
    obtain ⟨i, hi⟩ := List.mem_iff_getElem?.1 htT
    obtain ⟨hlt, hget⟩ := List.getElem?_eq_some_iff.1 hi
    have hmem : t.gid ∈ T.map Pt.gid := List.mem_map_of_mem htT
    have h1 : lidOf (discFor T O o).overlap t.gid = .ok i := by
      rw [show (discFor T O o).overlap = T.map Pt.gid ++ gh from hO,
        lidOf_mem (List.mem_append_left _ hmem), idxOf_overlap _ hmem, idxOf_gid hT hi]
    set f := O.idxOf with hf
    set L := T.map (fun t => t.nbrs.map f) with hL
    have hLl : i < L.length := by simpa [hL] using hlt
    have hLi : L[i] = t.nbrs.map f := by simp [hL, hget]
    have hoff : offsets L = offsets (T.map Pt.nbrs) := by
      rw [← offsets_map f (T.map Pt.nbrs), List.map_map]; rfl
    have h2 : readAt (discFor T O o).data.ptr i = .ok (encode (L.take i)).length := by
      rw [readAt_eq_ok, show (discFor T O o).data.ptr = offsets (T.map Pt.nbrs) from rfl, ← hoff]
      exact offsets_get L i hLl
    have h3 := neighborsAt_get L i hLl
    rw [hLi] at h3
    have hlist : (discFor T O o).data.list = encode L := rfl
    have hsplit : L = L.take i ++ (t.nbrs.map f) :: L.drop (i + 1) := by
      rw [← hLi]; simp
    have h4 : readAt (discFor T O o).data.list (encode (L.take i)).length = .ok t.nbrs.length := by
      rw [hlist]
      have e : encode L = encode (L.take i) ++ t.nbrs.length :: (t.nbrs.map f ++ encode (L.drop (i + 1))) := by
        conv_lhs => rw [hsplit]
        rw [encode_append, encode_cons, List.length_map]
      rw [e]
      exact readAt_mid _ _ _ _ rfl
    rw [neighborsAt, ← hlist, h4] at h3
    simp only at h3
    have h5 : gidsOf (discFor T O o).overlap (t.nbrs.map f) = .ok t.nbrs :=
      gidsOf_eq O t.nbrs fun g hg => hnb t htT g hg
    have h6 := lidsOf_eq ov t.nbrs htn
    have h7 := ih (fun x hx => hS x (List.mem_cons_of_mem _ hx)) (ids ++ [ov.idxOf t.gid])
      (acc ++ t.nbrs.length :: t.nbrs.map ov.idxOf) (ptr ++ [acc.length])
    rw [List.map_cons, blockLists, lidOf_mem hto, h1]
    simp only
    rw [h2]
    simp only
    rw [h4]
    simp only
    rw [h3]
    simp only
    rw [h5]
    simp only
    rw [h6]
    simp only
    rw [h7]
    simp only [List.map_cons, List.append_assoc, encode_cons, List.length_map,
      List.cons_append, List.nil_append, offsetsFrom, List.length_append, List.length_cons]
    rw [show acc.length + (t.nbrs.length + 1) = acc.length + 1 + t.nbrs.length by omega]

theorem blockBonds_some (gids blockIds : List Nat) (b : Nat) (es : List (Nat × Nat)) (hl : blockIds.length = gids.length)
    (h : ∀ e ∈ es, e.1 ∈ gids) : ∃ r, blockBonds gids blockIds b es = .ok r := by
  induction es with
  | nil => exact ⟨_, rfl⟩
  | cons e es ih =>
    obtain ⟨r, hr⟩ := ih fun x hx => h x (List.mem_cons_of_mem _ hx)
    have he := h e List.mem_cons_self
    have hlt : gids.idxOf e.1 < blockIds.length := by rw [hl]; exact List.idxOf_lt_length_of_mem he
    rw [show (e :: es) = ((e.1, e.2) :: es) from rfl, blockBonds, lidOf_mem he]
    simp only
    rw [readAt_lt _ _ hlt, hr]
    simp only
    split
    · exact ⟨_, rfl⟩
    · exact ⟨_, rfl⟩

/-- The maps of contact block `b` on a processor, without the bond map, which the contact model does not use. -/
def ownIn (W : World) (owned : List Nat) (b : Nat) : List Nat := owned.filter fun g => W.block g = b

/-- Overlap ids of contact block `b` on a processor. -/
def overlapIn (W : World) (cn : Nat → List Nat) (owned : List Nat) (b : Nat) : List Nat :=
  ownIn W owned b ++ sortUnique (((ownIn W owned b).flatMap cn).filter fun x => x ∉ ownIn W owned b)

theorem inBlock_pts (W : World) (cn : Nat → List Nat) (owned : List Nat) (b : Nat) :
    inBlock (pts W cn owned) b = pts W cn (ownIn W owned b) := by
  simp [inBlock, pts, ownIn, List.filter_map, Function.comp_def]

/-- The neighborhood data of contact block `b` on a processor. -/
def dataIn (W : World) (cn : Nat → List Nat) (owned : List Nat) (b : Nat) : NeighborhoodData :=
  ⟨(ownIn W owned b).map (overlapIn W cn owned b).idxOf,
   encode ((ownIn W owned b).map fun g => (cn g).map (overlapIn W cn owned b).idxOf),
   offsets ((ownIn W owned b).map cn)⟩

theorem mem_overlapIn {W : World} {cn : Nat → List Nat} {owned : List Nat} {b i j : Nat} (hi : i ∈ ownIn W owned b)
    (hj : j ∈ cn i) : j ∈ overlapIn W cn owned b := by
  unfold overlapIn
  rw [List.mem_append, mem_sortUnique, List.mem_filter, List.mem_flatMap]
  by_cases hm : j ∈ ownIn W owned b
  · exact Or.inl hm
  · exact Or.inr ⟨⟨i, hi, hj⟩, by simpa using hm⟩

theorem overlapIn_nodup {W : World} {owned : List Nat} (h : owned.Nodup) (cn : Nat → List Nat) (b : Nat) :
    (overlapIn W cn owned b).Nodup := by
  unfold overlapIn
  rw [List.nodup_append]
  refine ⟨h.sublist List.filter_sublist, nodup_sortUnique _, ?_⟩
  intro x hx y hy hxy
  rw [mem_sortUnique, List.mem_filter] at hy
  subst hxy
  simp [hx] at hy

theorem overlapIn_sub {W : World} {cn : Nat → List Nat} {owned : List Nat} {b : Nat} {g : Nat}
    (h : g ∈ overlapIn W cn owned b) : g ∈ owned ∨ ∃ i ∈ owned, g ∈ cn i := by
  unfold overlapIn at h
  rw [List.mem_append, mem_sortUnique, List.mem_filter, List.mem_flatMap] at h
  rcases h with h | ⟨⟨i, hi, hg⟩, _⟩
  · exact Or.inl (List.mem_filter.1 h).1
  · exact Or.inr ⟨i, (List.mem_filter.1 hi).1, hg⟩

theorem asIds_nat (l : List Nat) : asIds (l.map fun (n : Nat) => (n : Int)) = .ok l := by
  induction l with
  | nil => rfl
  | cons n l ih =>
    rw [List.map_cons, asIds, if_neg (by omega), ih]
    simp

theorem listOf_encode (nbs : List (List Nat)) : listOf nbs = (encode nbs).map fun (n : Nat) => (n : Int) := by
  simp [listOf, encode, List.map_flatMap, Function.comp_def]

theorem pointers_eq (nbs : List (List Nat)) (pre : List Int) (pos : Nat) (hpos : pos = pre.length) :
    pointers (pre ++ listOf nbs) nbs.length pos = .ok (offsetsFrom pos nbs) := by
  induction nbs generalizing pre pos with
  | nil => rfl
  | cons ns nbs ih =>
    have hl : listOf (ns :: nbs) = (ns.length : Int) :: (ns.map (fun (n : Nat) => (n : Int)) ++ listOf nbs) := by
      simp [listOf]
    have h2 := ih (pre ++ (ns.length : Int) :: ns.map fun (n : Nat) => (n : Int)) (pos + 1 + ns.length)
      (by simp [hpos]; omega)
    rw [show pre ++ ((ns.length : Int) :: ns.map fun (n : Nat) => (n : Int)) ++ listOf nbs = pre ++ listOf (ns :: nbs) by
      rw [hl]; simp] at h2
    rw [List.length_cons, pointers, hl, readAt_mid pre _ _ pos hpos, Outcome.ok_bind, ← hl, Int.toNat_natCast, h2]
    rfl

theorem lists_idxOf {ov : List Nat} (hn : ov.Nodup) {lids gs : List Nat} (h : lids.map (fun l => ov[l]?) = gs.map some) :
    lids = gs.map ov.idxOf ∧ ∀ g ∈ gs, g ∈ ov := by
  induction lids generalizing gs with
  | nil =>
    cases gs with
    | nil => simp
    | cons _ _ => simp at h
  | cons l lids ih =>
    cases gs with
    | nil => simp at h
    | cons g gs =>
      simp only [List.map_cons, List.cons.injEq] at h
      obtain ⟨h1, h2⟩ := ih h.2
      obtain ⟨hlt, hg⟩ := List.getElem?_eq_some_iff.1 h.1
      refine ⟨?_, ?_⟩
      · rw [List.map_cons, ← h1, ← hg, hn.idxOf_getElem l hlt]
      · intro x hx
        rcases List.mem_cons.1 hx with rfl | hx
        · exact hg ▸ List.getElem_mem _
        · exact h2 x hx

theorem contactDisc_eq {W : World} {cn : Nat → List Nat} {c : Contact.Part} (h : GoodPart W cn c) :
    contactDisc c = .ok (discFor (pts W cn c.owned) c.overlap c.contactOwned) ∧
      c.contactOwned.length = c.owned.length ∧ ∀ i ∈ c.owned, ∀ j ∈ cn i, j ∈ c.overlap := by
  obtain ⟨h0, lists, h1, h2⟩ := h.contact
  obtain ⟨gh, h3, h4⟩ := h.overlap
  have hlen : c.contactOwned.length = c.owned.length := by simpa using congrArg List.length h0
  have h5 : lists = c.owned.map (fun g => (cn g).map c.overlap.idxOf) ∧ ∀ i ∈ c.owned, ∀ j ∈ cn i, j ∈ c.overlap := by
    clear h0 h1 hlen
    generalize c.owned = O at h2
    induction h2 with
    | nil => simp
    | cons hr _ ih =>
      obtain ⟨h6, h7⟩ := lists_idxOf h4 hr
      refine ⟨by rw [List.map_cons, ← ih.1, ← h6], ?_⟩
      intro i hi
      rcases List.mem_cons.1 hi with rfl | hi
      · exact h7
      · exact ih.2 i hi
  refine ⟨?_, hlen, h5.2⟩
  have h6 := pointers_eq lists [] 0 rfl
  rw [List.nil_append, h2.length_eq, ← hlen, ← offsets_eq] at h6
  rw [contactDisc, h1, h6]
  rw [listOf_encode, asIds_nat]
  simp only [Outcome.ok_bind]
  have h7 : offsets lists = offsets (c.owned.map cn) := by
    rw [h5.1, ← offsets_map c.overlap.idxOf (c.owned.map cn), List.map_map]; rfl
  rw [h7, h5.1, discFor, pts_gid, pts_nbrs]
  simp [pts, Function.comp_def]

/-- Contact block `b` on a processor, with values `vol`, `y` and `v`. -/
def localOf (W : World) (cn : Nat → List Nat) (vol : Nat → ℝ) (y v : Nat → V3) (b : Nat) (bonds : BlockMap)
    (owned : List Nat) : Local :=
  ⟨⟨ownIn W owned b, overlapIn W cn owned b, bonds⟩, dataIn W cn owned b,
    (overlapIn W cn owned b).map fun g => (g, vol g), (overlapIn W cn owned b).map fun g => (g, y g),
    (overlapIn W cn owned b).map fun g => (g, v g)⟩

theorem buildLocal_eq {W : World} {cn : Nat → List Nat} {c : Contact.Part} (h : GoodPart W cn c) (b : Nat) :
    ∃ bonds, buildLocal c (c.owned.map W.block) b =
      .ok (localOf W cn (fun _ => 0) (fun _ => 0) (fun _ => 0) b bonds c.owned) := by
  obtain ⟨h1, h2, h3⟩ := contactDisc_eq h
  obtain ⟨gh, h4, h5⟩ := h.overlap
  have hT : ((pts W cn c.owned).map Pt.gid).Nodup := by rw [pts_gid]; exact h.nodup
  have e1 := blockOwned_eq (pts W cn c.owned) [] [] b c.owned.length 0 rfl rfl (by simp [pts])
  have hnb : ∀ t ∈ pts W cn c.owned, ∀ g ∈ t.nbrs, g ∈ c.overlap := by
    intro t ht g hg
    obtain ⟨i, hi, rfl⟩ := List.mem_map.1 ht
    exact h3 i hi g hg
  have e3 := blockNeighbors_eq (pts W cn c.owned) c.overlap [] [] b c.contactOwned.length 0 0 rfl rfl
    (by simp [pts, h2]) hnb
  simp only [List.nil_append, pts_gid, pts_block, inBlock_pts] at e1 e3
  have hb : c.bond.gids = c.owned.filter (fun g => W.bonds g ≠ []) := by rw [h.bonds.2]
  obtain ⟨bs, e2⟩ := blockBonds_some c.owned (c.owned.map W.block) b (c.bond.gids.zip c.bond.sizes) (by simp) (by
    intro e he
    have := (List.of_mem_zip (show (e.1, e.2) ∈ _ from he)).1
    rw [hb] at this
    exact (List.mem_filter.1 this).1)
  refine ⟨⟨bs.map Prod.fst, bs.map Prod.snd⟩, ?_⟩
  have e4 : createMaps (discFor (pts W cn c.owned) c.overlap c.contactOwned) c.bond (c.owned.map W.block) b =
      .ok ⟨ownIn W c.owned b, overlapIn W cn c.owned b, ⟨bs.map Prod.fst, bs.map Prod.snd⟩⟩ := by
    rw [createMaps]
    rw [show (discFor (pts W cn c.owned) c.overlap c.contactOwned).owned = c.owned from pts_gid _ _ _,
      show (discFor (pts W cn c.owned) c.overlap c.contactOwned).overlap = c.overlap from rfl,
      show (discFor (pts W cn c.owned) c.overlap c.contactOwned).data.ownedIDs = c.contactOwned from rfl,
      show (discFor (pts W cn c.owned) c.overlap c.contactOwned).data.list =
        encode ((pts W cn c.owned).map fun t => t.nbrs.map c.overlap.idxOf) from rfl, e1, e2, e3]
    simp only [overlapIn]
    rw [show (pts W cn (ownIn W c.owned b)).flatMap Pt.nbrs = (ownIn W c.owned b).flatMap cn by
      rw [pts, List.flatMap_map]]
  have e5 := blockLists_disc (pts W cn c.owned) hT c.overlap gh c.contactOwned (by rw [pts_gid]; exact h4) hnb
    (overlapIn W cn c.owned b) (pts W cn (ownIn W c.owned b)) (by
      intro t ht
      obtain ⟨i, hi, rfl⟩ := List.mem_map.1 ht
      exact ⟨List.mem_map.2 ⟨i, (List.mem_filter.1 hi).1, rfl⟩, List.mem_append_left _ hi,
        fun g hg => mem_overlapIn hi hg⟩) [] [] []
  simp only [List.nil_append, List.length_nil, ← offsets_eq, pts_gid, pts_nbrs] at e5
  rw [buildLocal, h1, Outcome.ok_bind, e4, Outcome.ok_bind, blockNeighborhood]
  simp only
  rw [e5, Outcome.ok_bind]
  simp only [localOf, dataIn, zeros, pts, List.map_map, Function.comp_def]

end Verif.Touch
