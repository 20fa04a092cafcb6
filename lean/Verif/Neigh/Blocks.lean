import Verif.Neigh.Lemmas

/-! Closed forms of the discretization's and the blocks' lists. -/

namespace Verif.Neigh

open Verif

/-- Positions of the entries when the list begins at `k`. -/
def offsetsFrom : Nat → List (List Nat) → List Nat
  | _, [] => []
  | k, ns :: nbs => k :: offsetsFrom (k + 1 + ns.length) nbs

theorem offsetsFrom_eq (k : Nat) (nbs : List (List Nat)) :
    offsetsFrom k nbs = (List.range nbs.length).map fun i => k + (encode (nbs.take i)).length := by
  induction nbs generalizing k with
  | nil => rfl
  | cons ns nbs ih =>
    rw [offsetsFrom, ih, List.length_cons, List.range_succ_eq_map]
    simp only [List.map_cons, List.take_zero, encode_nil, List.length_nil, Nat.add_zero, List.map_map,
      List.cons.injEq, true_and]
    apply List.map_congr_left
    intro i _
    simp
    omega

theorem offsets_eq (nbs : List (List Nat)) : offsets nbs = offsetsFrom 0 nbs := by
  rw [offsetsFrom_eq]; simp [offsets]

theorem offsets_map (f : Nat → Nat) (nbs : List (List Nat)) :
    offsets (nbs.map (·.map f)) = offsets nbs := by
  rw [offsets_eq, offsets_eq]
  generalize 0 = k
  induction nbs generalizing k with
  | nil => rfl
  | cons ns nbs ih => simp [offsetsFrom, ih]

theorem lidOf_mem {ids : List Nat} {g : Nat} (h : g ∈ ids) : lidOf ids g = .ok (ids.idxOf g) :=
  if_pos h

theorem lidsOf_eq (ov gs : List Nat) (h : ∀ g ∈ gs, g ∈ ov) :
    lidsOf ov gs = .ok (gs.map ov.idxOf) := by
  induction gs with
  | nil => rfl
  | cons g gs ih =>
    have h1 := ih fun x hx => h x (List.mem_cons_of_mem _ hx)
    have h2 := lidOf_mem (h g List.mem_cons_self)
    rw [lidsOf, h2]
    simp only
    rw [h1]
    rfl

theorem readAt_idxOf (ov : List Nat) (g : Nat) (h : g ∈ ov) : readAt ov (ov.idxOf g) = .ok g := by
  have hl := List.idxOf_lt_length_of_mem h
  rw [readAt_lt _ _ hl, List.getElem_idxOf]

theorem gidsOf_eq (ov gs : List Nat) (h : ∀ g ∈ gs, g ∈ ov) :
    gidsOf ov (gs.map ov.idxOf) = .ok gs := by
  induction gs with
  | nil => rfl
  | cons g gs ih =>
    have h1 := ih fun x hx => h x (List.mem_cons_of_mem _ hx)
    rw [List.map_cons, gidsOf, readAt_idxOf _ _ (h g List.mem_cons_self)]
    simp only
    rw [h1]

theorem offProcessor_eq (gids ptr : List Nat) (pre nbs : List (List Nat)) :
    offProcessor ⟨gids, encode (pre ++ nbs), ptr⟩ (offsetsFrom (encode pre).length nbs) =
      .ok (nbs.flatMap fun ns => ns.filter fun id => id ∉ gids) := by
  induction nbs generalizing pre with
  | nil => rfl
  | cons ns nbs ih =>
    have h1 := neighborsAt_mid pre ns nbs []
    rw [List.append_nil] at h1
    have h2 := ih (pre ++ [ns])
    rw [show (encode (pre ++ [ns])).length = (encode pre).length + 1 + ns.length by
      rw [encode_append]; simp; omega, show pre ++ [ns] ++ nbs = pre ++ ns :: nbs by simp] at h2
    rw [offsetsFrom, offProcessor]
    simp only
    rw [h1]
    simp only
    rw [h2]
    rfl

/-- The ids a processor shares: neighbors of its points that it does not own, increasing. -/
def sharedOf (gids : List Nat) (nbs : List (List Nat)) : List Nat :=
  sortUnique (nbs.flatMap fun ns => ns.filter fun id => id ∉ gids)

/-- The overlap ids. -/
def overlapOf (gids : List Nat) (nbs : List (List Nat)) : List Nat := gids ++ sharedOf gids nbs

theorem overlapIds_eq (gids : List Nat) (nbs : List (List Nat)) (hl : nbs.length = gids.length) :
    overlapIds (gridOf gids nbs) = .ok (overlapOf gids nbs) := by
  have h := offProcessor_eq gids (offsets nbs) [] nbs
  simp only [List.nil_append, encode_nil, List.length_nil] at h
  have ht : (offsets nbs).take gids.length = offsetsFrom 0 nbs := by
    rw [← hl, ← offsets_length nbs, List.take_length, offsets_eq]
  unfold overlapIds sharedIds gridOf
  simp only
  rw [ht, h]
  rfl

theorem mem_overlapOf {gids : List Nat} {nbs : List (List Nat)} {ns : List Nat} (h : ns ∈ nbs)
    {g : Nat} (hg : g ∈ ns) : g ∈ overlapOf gids nbs := by
  unfold overlapOf sharedOf
  rw [List.mem_append, mem_sortUnique, List.mem_flatMap]
  by_cases hm : g ∈ gids
  · exact Or.inl hm
  · exact Or.inr ⟨ns, h, by simp [hg, hm]⟩

theorem overlapOf_nodup {gids : List Nat} (h : gids.Nodup) (nbs : List (List Nat)) :
    (overlapOf gids nbs).Nodup := by
  unfold overlapOf sharedOf
  rw [List.nodup_append]
  refine ⟨h, nodup_sortUnique _, ?_⟩
  intro a ha b hb hab
  rw [mem_sortUnique, List.mem_flatMap] at hb
  obtain ⟨_, _, hb⟩ := hb
  subst hab
  simp [ha] at hb

theorem idxOf_overlap {gids : List Nat} (s : List Nat) {g : Nat} (h : g ∈ gids) :
    (gids ++ s).idxOf g = gids.idxOf g := List.idxOf_append_of_mem h

theorem write_mid (A : List Nat) (x m i : Nat) (hi : i = A.length) :
    RawArray.write (A.map some ++ List.replicate (m + 1) none) i x =
      .ok ((A ++ [x]).map some ++ List.replicate m none) := by
  subst hi
  unfold RawArray.write
  rw [if_pos (by simp)]
  simp [List.replicate_succ]

theorem writeLocalIds_eq (gids ptr ov : List Nat) (P ns R A : List Nat) (pos k m : Nat)
    (hpos : pos = P.length) (hA : A.length = P.length) (hk : k = ns.length)
    (hov : ∀ g ∈ ns, g ∈ ov) :
    writeLocalIds ⟨gids, P ++ (ns ++ R), ptr⟩ ov pos k
        (A.map some ++ List.replicate (ns.length + m) none) =
      .ok ((A ++ ns.map ov.idxOf).map some ++ List.replicate m none) := by
  subst hk
  induction ns generalizing P A pos with
  | nil => simp [writeLocalIds]
  | cons n ns ih =>
    have e : P ++ (n :: ns ++ R) = (P ++ [n]) ++ (ns ++ R) := by simp
    have h1 : readAt (P ++ (n :: ns ++ R)) pos = .ok n := by
      simpa using readAt_mid P n (ns ++ R) pos hpos
    have h2 := lidOf_mem (hov n List.mem_cons_self)
    have h3 := write_mid A (ov.idxOf n) (ns.length + m) pos (by omega)
    have h4 := ih (P ++ [n]) (A ++ [ov.idxOf n]) (pos + 1) (by simp [hpos]) (by simp [hA])
      fun x hx => hov x (List.mem_cons_of_mem _ hx)
    rw [List.length_cons, writeLocalIds]
    simp only
    rw [h1]
    simp only
    rw [h2]
    simp only
    rw [show ns.length + 1 + m = ns.length + m + 1 by omega, h3]
    simp only
    rw [e, h4]
    simp

theorem writeLocalLists_eq (gids ptr ov : List Nat) (pre nbs : List (List Nat)) (A : List Nat)
    (hA : A.length = (encode pre).length) (hov : ∀ ns ∈ nbs, ∀ g ∈ ns, g ∈ ov) :
    writeLocalLists ⟨gids, encode (pre ++ nbs), ptr⟩ ov (offsetsFrom (encode pre).length nbs)
        (A.map some ++ List.replicate (encode nbs).length none) =
      .ok ((A ++ encode (nbs.map (·.map ov.idxOf))).map some) := by
  induction nbs generalizing pre A with
  | nil => simp [writeLocalLists, offsetsFrom]
  | cons ns nbs ih =>
    have e1 : encode (pre ++ ns :: nbs) = encode pre ++ ns.length :: (ns ++ encode nbs) := by
      rw [encode_append]; simp
    have e2 : encode (pre ++ ns :: nbs) = (encode pre ++ [ns.length]) ++ (ns ++ encode nbs) := by
      rw [encode_append]; simp
    have h1 : readAt (encode (pre ++ ns :: nbs)) (encode pre).length = .ok ns.length := by
      rw [e1]; exact readAt_mid _ _ _ _ rfl
    have h2 := write_mid A ns.length (ns.length + (encode nbs).length) (encode pre).length hA.symm
    have h3 := writeLocalIds_eq gids ptr ov (encode pre ++ [ns.length]) ns (encode nbs)
      (A ++ [ns.length]) ((encode pre).length + 1) ns.length (encode nbs).length (by simp)
      (by simp [hA]) rfl (hov ns List.mem_cons_self)
    have h4 := ih (pre ++ [ns]) (A ++ [ns.length] ++ ns.map ov.idxOf)
      (by rw [encode_append]; simp [hA]) fun x hx => hov x (List.mem_cons_of_mem _ hx)
    rw [show (encode (pre ++ [ns])).length = (encode pre).length + 1 + ns.length by
      rw [encode_append]; simp; omega, show pre ++ [ns] ++ nbs = pre ++ ns :: nbs by simp] at h4
    rw [offsetsFrom, writeLocalLists]
    simp only
    rw [h1]
    simp only
    rw [show (encode (ns :: nbs)).length = ns.length + (encode nbs).length + 1 by simp, h2]
    simp only
    rw [← e2] at h3
    rw [h3]
    simp only
    rw [h4]
    simp

theorem values_some (l : List Nat) : RawArray.values (l.map some) = .ok l := by
  induction l with
  | nil => rfl
  | cons x l ih => rw [List.map_cons, RawArray.values, ih]

theorem localNeighborList_eq (gids ov : List Nat) (nbs : List (List Nat))
    (hl : nbs.length = gids.length) (hov : ∀ ns ∈ nbs, ∀ g ∈ ns, g ∈ ov) :
    localNeighborList (gridOf gids nbs) ov = .ok (encode (nbs.map (·.map ov.idxOf))) := by
  have h := writeLocalLists_eq gids (offsets nbs) ov [] nbs [] rfl hov
  simp only [List.nil_append, encode_nil, List.length_nil, List.map_nil] at h
  have ht : (offsets nbs).take gids.length = offsetsFrom 0 nbs := by
    rw [← hl, ← offsets_length nbs, List.take_length, offsets_eq]
  unfold localNeighborList gridOf
  simp only
  rw [ht, h]
  simp only
  exact values_some _

/-- The discretization of a processor's points. -/
def discOf (gids : List Nat) (nbs : List (List Nat)) : Disc :=
  ⟨gids, overlapOf gids nbs, ⟨gids.map (overlapOf gids nbs).idxOf,
    encode (nbs.map (·.map (overlapOf gids nbs).idxOf)), offsets nbs⟩⟩

theorem discretize_eq (gids : List Nat) (nbs : List (List Nat)) (hl : nbs.length = gids.length) :
    discretize (gridOf gids nbs) = .ok (discOf gids nbs) := by
  have h1 := lidsOf_eq (overlapOf gids nbs) gids fun g hg => List.mem_append_left _ hg
  have h2 := localNeighborList_eq gids (overlapOf gids nbs) nbs hl
    fun ns hns g hg => mem_overlapOf hns hg
  unfold discretize
  rw [overlapIds_eq gids nbs hl]
  simp only
  rw [show (gridOf gids nbs).gids = gids from rfl, h1, h2]
  rfl

/-! ### Bond map -/

theorem bondEntries_eq (T : List Pt) (f : Nat → Nat) (G P : List Nat) (n i pos : Nat)
    (hi : i = G.length) (hpos : pos = P.length) (hn : n = T.length) :
    bondEntries (G ++ T.map Pt.gid) (P ++ encode (T.map fun t => t.nbrs.map f)) n i pos =
      .ok ((T.filter fun t => 0 < t.nbrs.length).map fun t => (t.gid, t.nbrs.length)) := by
  subst hn
  induction T generalizing G P i pos with
  | nil => rfl
  | cons t T ih =>
    have h1 : readAt (P ++ encode ((t :: T).map fun t => t.nbrs.map f)) pos = .ok t.nbrs.length := by
      rw [List.map_cons, encode_cons, List.length_map]; exact readAt_mid _ _ _ _ hpos
    have h2 : readAt (G ++ (t :: T).map Pt.gid) i = .ok t.gid := readAt_mid _ _ _ _ hi
    have h3 := ih (G ++ [t.gid]) (P ++ t.nbrs.length :: t.nbrs.map f) (i + 1)
      (pos + (1 + t.nbrs.length)) (by simp [hi]) (by simp [hpos]; omega)
    rw [show G ++ [t.gid] ++ T.map Pt.gid = G ++ (t :: T).map Pt.gid by simp,
      show P ++ t.nbrs.length :: t.nbrs.map f ++ encode (T.map fun t => t.nbrs.map f) =
        P ++ encode ((t :: T).map fun t => t.nbrs.map f) by simp] at h3
    rw [List.length_cons, bondEntries, h1]
    simp only
    rw [h3]
    simp only
    rw [h2]
    simp only
    by_cases hk : 0 < t.nbrs.length
    · rw [if_pos hk, List.filter_cons_of_pos (by simpa using hk)]; rfl
    · rw [if_neg hk, List.filter_cons_of_neg (by simpa using hk)]

/-- Bond map of a list of points. -/
def bondsOf (T : List Pt) : BlockMap :=
  ⟨(T.filter fun t => 0 < t.nbrs.length).map Pt.gid,
   (T.filter fun t => 0 < t.nbrs.length).map fun t => t.nbrs.length⟩

/-- The discretization of a mesh. -/
def meshDisc (T : List Pt) : Disc := discOf (T.map Pt.gid) (T.map Pt.nbrs)

/-- The overlap ids of a mesh. -/
def meshOverlap (T : List Pt) : List Nat := overlapOf (T.map Pt.gid) (T.map Pt.nbrs)

theorem meshDisc_list (T : List Pt) :
    (meshDisc T).data.list = encode (T.map fun t => t.nbrs.map (meshOverlap T).idxOf) := by
  simp [meshDisc, discOf, meshOverlap, Function.comp_def]

theorem bondMap_eq (T : List Pt) : bondMap (meshDisc T) = .ok (bondsOf T) := by
  have h := bondEntries_eq T (meshOverlap T).idxOf [] [] T.length 0 0 rfl rfl rfl
  simp only [List.nil_append] at h
  unfold bondMap
  rw [meshDisc_list, show (meshDisc T).owned = T.map Pt.gid from rfl,
    show (meshDisc T).data.ownedIDs.length = T.length by simp [meshDisc, discOf], h]
  simp only [bondsOf, List.map_map]
  rfl

/-! ### Maps of a block -/

theorem blockOwned_eq (T : List Pt) (G B : List Nat) (b n i : Nat) (hi : i = G.length)
    (hB : B.length = G.length) (hn : n = T.length) :
    blockOwned (G ++ T.map Pt.gid) (B ++ T.map Pt.block) b n i =
      .ok ((inBlock T b).map Pt.gid) := by
  subst hn
  induction T generalizing G B i with
  | nil => rfl
  | cons t T ih =>
    have h1 : readAt (B ++ (t :: T).map Pt.block) i = .ok t.block :=
      readAt_mid _ _ _ _ (by omega)
    have h2 : readAt (G ++ (t :: T).map Pt.gid) i = .ok t.gid := readAt_mid _ _ _ _ hi
    have h3 := ih (G ++ [t.gid]) (B ++ [t.block]) (i + 1) (by simp [hi]) (by simp [hB])
    rw [show G ++ [t.gid] ++ T.map Pt.gid = G ++ (t :: T).map Pt.gid by simp,
      show B ++ [t.block] ++ T.map Pt.block = B ++ (t :: T).map Pt.block by simp] at h3
    rw [List.length_cons, blockOwned, h1, h2, h3]
    simp only [inBlock]
    by_cases hb : t.block = b
    · rw [if_pos hb, List.filter_cons_of_pos (by simpa using hb)]; rfl
    · rw [if_neg hb, List.filter_cons_of_neg (by simpa using hb)]

theorem idxOf_gid {T : List Pt} (hT : (T.map Pt.gid).Nodup) {i : Nat} {t : Pt}
    (hi : T[i]? = some t) : (T.map Pt.gid).idxOf t.gid = i := by
  obtain ⟨hl, rfl⟩ := List.getElem?_eq_some_iff.1 hi
  have hl' : i < (T.map Pt.gid).length := by simpa using hl
  have := hT.idxOf_getElem i hl'
  simpa using this

theorem readAt_block {T : List Pt} (hT : (T.map Pt.gid).Nodup) {t : Pt} (ht : t ∈ T) :
    readAt (T.map Pt.block) ((T.map Pt.gid).idxOf t.gid) = .ok t.block := by
  obtain ⟨i, hi⟩ := List.mem_iff_getElem?.1 ht
  rw [idxOf_gid hT hi, readAt_eq_ok]
  simp [hi]

theorem blockBonds_eq {T : List Pt} (hT : (T.map Pt.gid).Nodup) (b : Nat) (S : List Pt)
    (hS : ∀ t ∈ S, t ∈ T) :
    blockBonds (T.map Pt.gid) (T.map Pt.block) b (S.map fun t => (t.gid, t.nbrs.length)) =
      .ok ((S.filter fun t => t.block = b).map fun t => (t.gid, t.nbrs.length)) := by
  induction S with
  | nil => rfl
  | cons t S ih =>
    have h1 := ih fun x hx => hS x (List.mem_cons_of_mem _ hx)
    have ht := hS t List.mem_cons_self
    have h2 : lidOf (T.map Pt.gid) t.gid = .ok ((T.map Pt.gid).idxOf t.gid) :=
      lidOf_mem (List.mem_map_of_mem ht)
    rw [List.map_cons, blockBonds]
    rw [h2]
    simp only
    rw [readAt_block hT ht, h1]
    simp only
    by_cases hb : t.block = b
    · rw [if_pos hb, List.filter_cons_of_pos (by simpa using hb)]; rfl
    · rw [if_neg hb, List.filter_cons_of_neg (by simpa using hb)]

theorem blockNeighbors_eq (T : List Pt) (ov B P : List Nat) (b n i pos : Nat) (hi : i = B.length)
    (hpos : pos = P.length) (hn : n = T.length) (hov : ∀ t ∈ T, ∀ g ∈ t.nbrs, g ∈ ov) :
    blockNeighbors ov (B ++ T.map Pt.block) b (P ++ encode (T.map fun t => t.nbrs.map ov.idxOf))
        n i pos = .ok ((inBlock T b).flatMap Pt.nbrs) := by
  subst hn
  induction T generalizing B P i pos with
  | nil => rfl
  | cons t T ih =>
    have h1 : readAt (P ++ encode ((t :: T).map fun t => t.nbrs.map ov.idxOf)) pos
        = .ok t.nbrs.length := by
      rw [List.map_cons, encode_cons, List.length_map]; exact readAt_mid _ _ _ _ hpos
    have h2 : readAt (B ++ (t :: T).map Pt.block) i = .ok t.block := readAt_mid _ _ _ _ hi
    have h3 := ih (B ++ [t.block]) (P ++ t.nbrs.length :: t.nbrs.map ov.idxOf) (i + 1)
      (pos + 1 + t.nbrs.length) (by simp [hi]) (by simp [hpos]; omega)
      fun x hx => hov x (List.mem_cons_of_mem _ hx)
    rw [show B ++ [t.block] ++ T.map Pt.block = B ++ (t :: T).map Pt.block by simp,
      show P ++ t.nbrs.length :: t.nbrs.map ov.idxOf ++ encode (T.map fun t => t.nbrs.map ov.idxOf) =
        P ++ encode ((t :: T).map fun t => t.nbrs.map ov.idxOf) by simp] at h3
    have h4 : readIds (P ++ encode ((t :: T).map fun t => t.nbrs.map ov.idxOf)) (pos + 1)
        t.nbrs.length = .ok (t.nbrs.map ov.idxOf) := by
      have := readIds_mid (P ++ [t.nbrs.length]) (t.nbrs.map ov.idxOf)
        (encode (T.map fun t => t.nbrs.map ov.idxOf)) (pos + 1) t.nbrs.length (by simp [hpos])
        (by simp)
      simpa using this
    have h5 := gidsOf_eq ov t.nbrs (hov t List.mem_cons_self)
    rw [List.length_cons, blockNeighbors, h1]
    simp only
    rw [h2]
    simp only
    rw [h3]
    simp only
    rw [h4]
    simp only
    rw [h5]
    simp only [inBlock]
    by_cases hb : t.block = b
    · rw [if_pos hb, List.filter_cons_of_pos (by simpa using hb)]; rfl
    · rw [if_neg hb, List.filter_cons_of_neg (by simpa using hb)]

/-- Owned ids of a block. -/
def ownOf (T : List Pt) (b : Nat) : List Nat := (inBlock T b).map Pt.gid

/-- Ghost ids of a block, increasing. -/
def ghostsOf (T : List Pt) (b : Nat) : List Nat :=
  sortUnique (((inBlock T b).flatMap Pt.nbrs).filter fun x => x ∉ ownOf T b)

/-- The maps of block `b`. -/
def mapsOf (T : List Pt) (b : Nat) : BlockMaps :=
  ⟨ownOf T b, ownOf T b ++ ghostsOf T b, bondsOf (inBlock T b)⟩

theorem createMaps_eq (T : List Pt) (hT : (T.map Pt.gid).Nodup) (b : Nat) :
    createMaps (meshDisc T) (bondsOf T) (T.map Pt.block) b = .ok (mapsOf T b) := by
  have h1 := blockOwned_eq T [] [] b T.length 0 rfl rfl rfl
  have h2 := blockBonds_eq hT b (T.filter fun t => 0 < t.nbrs.length)
    fun t ht => (List.mem_filter.1 ht).1
  have h3 := blockNeighbors_eq T (meshOverlap T) [] [] b T.length 0 0 rfl rfl rfl
    fun t ht g hg => mem_overlapOf (List.mem_map_of_mem ht) hg
  simp only [List.nil_append] at h1 h3
  have hz : (bondsOf T).gids.zip (bondsOf T).sizes =
      (T.filter fun t => 0 < t.nbrs.length).map fun t => (t.gid, t.nbrs.length) := by
    simp only [bondsOf]
    rw [List.zip_map']
  unfold createMaps
  rw [hz, meshDisc_list, show (meshDisc T).owned = T.map Pt.gid from rfl,
    show (meshDisc T).overlap = meshOverlap T from rfl, List.length_map,
    show (meshDisc T).data.ownedIDs.length = T.length by simp [meshDisc, discOf], h1, h2, h3]
  simp only [mapsOf, ownOf, ghostsOf, bondsOf, inBlock, List.map_map, List.filter_filter]
  congr 4 <;> · congr 1; funext x; exact Bool.and_comm _ _

theorem mem_mapsOf {T : List Pt} {b : Nat} {t : Pt} (ht : t ∈ inBlock T b) {g : Nat}
    (hg : g ∈ t.nbrs) : g ∈ (mapsOf T b).overlap := by
  unfold mapsOf ghostsOf
  simp only [List.mem_append, mem_sortUnique, List.mem_filter, List.mem_flatMap]
  by_cases hm : g ∈ ownOf T b
  · exact Or.inl hm
  · exact Or.inr ⟨⟨t, ht, hg⟩, by simpa using hm⟩

theorem mapsOf_nodup {T : List Pt} (hT : (T.map Pt.gid).Nodup) (b : Nat) :
    (mapsOf T b).overlap.Nodup := by
  unfold mapsOf ghostsOf
  simp only
  rw [List.nodup_append]
  refine ⟨hT.sublist (List.filter_sublist.map _), nodup_sortUnique _, ?_⟩
  intro x hx y hy hxy
  rw [mem_sortUnique, List.mem_filter] at hy
  subst hxy
  simp [hx] at hy

/-! ### Neighborhood data of a block -/

theorem blockLists_eq (T : List Pt) (hT : (T.map Pt.gid).Nodup) (ov : List Nat) (S : List Pt)
    (hS : ∀ t ∈ S, t ∈ T ∧ t.gid ∈ ov ∧ ∀ g ∈ t.nbrs, g ∈ ov) (ids acc ptr : List Nat) :
    blockLists (meshDisc T) ov (S.map Pt.gid) ids acc ptr =
      .ok ⟨ids ++ S.map (fun t => ov.idxOf t.gid),
        acc ++ encode (S.map fun t => t.nbrs.map ov.idxOf),
        ptr ++ offsetsFrom acc.length (S.map Pt.nbrs)⟩ := by
  induction S generalizing ids acc ptr with
  | nil => simp [blockLists, offsetsFrom]
  | cons t S ih =>
    obtain ⟨htT, hto, htn⟩ := hS t List.mem_cons_self
    obtain ⟨i, hi⟩ := List.mem_iff_getElem?.1 htT
    obtain ⟨hlt, hget⟩ := List.getElem?_eq_some_iff.1 hi
    have hmem : t.gid ∈ T.map Pt.gid := List.mem_map_of_mem htT
    have h1 : lidOf (meshDisc T).overlap t.gid = .ok i := by
      rw [lidOf_mem (ids := (meshDisc T).overlap) (List.mem_append_left _ hmem)]
      rw [show (meshDisc T).overlap = T.map Pt.gid ++ sharedOf (T.map Pt.gid) (T.map Pt.nbrs) from rfl,
        idxOf_overlap _ hmem, idxOf_gid hT hi]
    set f := (meshOverlap T).idxOf with hf
    set L := T.map (fun t => t.nbrs.map f) with hL
    have hLl : i < L.length := by simpa [hL] using hlt
    have hLi : L[i] = t.nbrs.map f := by simp [hL, hget]
    have hoff : offsets L = offsets (T.map Pt.nbrs) := by
      rw [← offsets_map f (T.map Pt.nbrs), List.map_map]; rfl
    have h2 : readAt (meshDisc T).data.ptr i = .ok (encode (L.take i)).length := by
      rw [readAt_eq_ok, show (meshDisc T).data.ptr = offsets (T.map Pt.nbrs) from rfl, ← hoff]
      exact offsets_get L i hLl
    have h3 := neighborsAt_get L i hLl
    rw [hLi] at h3
    have hlist : (meshDisc T).data.list = encode L := meshDisc_list T
    have hsplit : L = L.take i ++ (t.nbrs.map f) :: L.drop (i + 1) := by
      rw [← hLi]; simp
    have h4 : readAt (meshDisc T).data.list (encode (L.take i)).length = .ok t.nbrs.length := by
      rw [hlist]
      have e : encode L = encode (L.take i) ++ t.nbrs.length :: (t.nbrs.map f ++ encode (L.drop (i + 1))) := by
        conv_lhs => rw [hsplit]
        rw [encode_append, encode_cons, List.length_map]
      rw [e]
      exact readAt_mid _ _ _ _ rfl
    rw [neighborsAt, ← hlist, h4] at h3
    simp only at h3
    have h5 : gidsOf (meshDisc T).overlap (t.nbrs.map f) = .ok t.nbrs :=
      gidsOf_eq (meshOverlap T) t.nbrs fun g hg => mem_overlapOf (List.mem_map_of_mem htT) hg
    have h6 := lidsOf_eq ov t.nbrs htn
    have h7 := ih (fun x hx => hS x (List.mem_cons_of_mem _ hx)) (ids ++ [ov.idxOf t.gid])
      (acc ++ t.nbrs.length :: t.nbrs.map ov.idxOf) (ptr ++ [acc.length])
    rw [List.map_cons, blockLists, lidOf_mem hto, h1]
    simp only
    rw [h2]
    simp only
    rw [h4]
    simp only
    rw [h3]
    simp only
    rw [h5]
    simp only
    rw [h6]
    simp only
    rw [h7]
    simp only [List.map_cons, List.append_assoc, encode_cons, List.length_map,
      List.cons_append, List.nil_append, offsetsFrom, List.length_append, List.length_cons]
    rw [show acc.length + (t.nbrs.length + 1) = acc.length + 1 + t.nbrs.length by omega]

/-- The block built for block id `b`. -/
def blockData (T : List Pt) (b : Nat) : NeighborhoodData :=
  ⟨(inBlock T b).map (fun t => (mapsOf T b).overlap.idxOf t.gid),
   encode ((inBlock T b).map fun t => t.nbrs.map (mapsOf T b).overlap.idxOf),
   offsets ((inBlock T b).map Pt.nbrs)⟩

theorem meshBlock_eq (T : List Pt) (hT : (T.map Pt.gid).Nodup) (b : Nat) :
    meshBlock T b = .ok ⟨mapsOf T b, blockData T b⟩ := by
  have h1 := discretize_eq (T.map Pt.gid) (T.map Pt.nbrs) (by simp)
  have h2 := blockLists_eq T hT (mapsOf T b).overlap (inBlock T b)
    (fun t ht => ⟨(List.mem_filter.1 ht).1,
      List.mem_append_left _ (List.mem_map_of_mem ht), fun g hg => mem_mapsOf ht hg⟩) [] [] []
  simp only [List.nil_append, List.length_nil, ← offsets_eq] at h2
  unfold meshBlock blockOf
  rw [show meshGrid T = gridOf (T.map Pt.gid) (T.map Pt.nbrs) from rfl, h1]
  simp only
  rw [show discOf (T.map Pt.gid) (T.map Pt.nbrs) = meshDisc T from rfl, bondMap_eq]
  simp only
  unfold initBlock
  rw [createMaps_eq T hT b]
  simp only
  unfold blockNeighborhood
  rw [show (mapsOf T b).owned = (inBlock T b).map Pt.gid from rfl, h2]
  rfl

end Verif.Neigh
