import Verif.Contact.RebalanceSpec

/-! Lemmas on the contact manager's rebalance. -/

namespace Verif.Contact

open Verif Verif.Redist Verif.Neigh

/-- The bond map for the points `G` with bonds `nb`. -/
def bondMapOf (nb : Nat → List Nat) (G : List Nat) : BlockMap :=
  ⟨G.filter (fun g => nb g ≠ []), (G.filter (fun g => nb g ≠ [])).map fun g => (nb g).length⟩

/-- The neighbors of the points `G`, one after the other. -/
def flatGids (nb : Nat → List Nat) (G : List Nat) : List Int :=
  G.flatMap fun g => (nb g).map fun (k : Nat) => (k : Int)

theorem flatGids_filter (nb : Nat → List Nat) (G : List Nat) :
    flatGids nb (G.filter fun g => nb g ≠ []) = flatGids nb G := by
  unfold flatGids
  induction G with
  | nil => rfl
  | cons g G ih =>
    by_cases h : nb g = []
    · rw [List.filter_cons_of_neg (by simp [h]), List.flatMap_cons, ih]; simp [h]
    · rw [List.filter_cons_of_pos (by simp [h]), List.flatMap_cons, List.flatMap_cons, ih]

theorem numPoints_bondMapOf (nb : Nat → List Nat) (G : List Nat) :
    (bondMapOf nb G).numPoints = (flatGids nb G).length := by
  rw [← flatGids_filter]
  simp [bondMapOf, BlockMap.numPoints, flatGids, List.length_flatMap]

/-- The element of a point in a vector on the bond map. -/
theorem slice (nb : Nat → List Nat) (G : List Nat) (g : Nat) (hg : g ∈ G) (hn : G.Nodup) (h0 : nb g ≠ []) :
    ∃ pre post, flatGids nb G = pre ++ ((nb g).map (fun (k : Nat) => (k : Int)) ++ post) ∧
      ∃ l, (bondMapOf nb G).lid g = some l ∧ (bondMapOf nb G).firstPoint l = pre.length ∧
        (bondMapOf nb G).sizes[l]? = some (nb g).length := by
  have hm : g ∈ G.filter fun g => nb g ≠ [] := List.mem_filter.2 ⟨hg, by simpa using h0⟩
  have hn' : (G.filter fun g => nb g ≠ []).Nodup := hn.filter _
  rw [← flatGids_filter]
  unfold bondMapOf
  generalize G.filter (fun g => nb g ≠ []) = K at hm hn'
  obtain ⟨A, B, rfl⟩ := List.append_of_mem hm
  have hnot : g ∉ A := by
    rw [List.nodup_append] at hn'
    intro h
    exact hn'.2.2 g h g (by simp) rfl
  have hidx : (A ++ g :: B).idxOf g = A.length := by
    rw [List.idxOf_append_of_notMem hnot, List.idxOf_cons_self]; simp
  refine ⟨flatGids nb A, flatGids nb B, by simp [flatGids], A.length, ?_, ?_, by simp⟩
  · unfold BlockMap.lid
    simp only
    rw [if_pos hm, hidx]
  · unfold BlockMap.firstPoint
    simp only
    rw [List.map_append, List.take_left' (by simp)]
    simp [flatGids, List.length_flatMap]

theorem lid_none (nb : Nat → List Nat) (G : List Nat) (g : Nat) (h0 : nb g = []) :
    (bondMapOf nb G).lid g = none := by
  unfold bondMapOf BlockMap.lid
  rw [if_neg]
  simp [h0]

theorem numberOfBonds_eq (nb : Nat → List Nat) (G : List Nat) (g : Nat) (hg : g ∈ G) (hn : G.Nodup) :
    numberOfBonds (bondMapOf nb G) g = .ok ((nb g).length : Int) := by
  unfold numberOfBonds
  by_cases h0 : nb g = []
  · rw [lid_none nb G g h0, h0]; rfl
  · obtain ⟨_, _, _, l, h1, _, h2⟩ := slice nb G g hg hn h0
    rw [h1]
    simp only
    rw [h2]

theorem pointGids_eq (ov : List Nat) (n : Nat) (lids gs : List Nat) (h : Resolves ov lids gs)
    (pre post : List Nat) (pos idx : Nat) (hpos : pos = pre.length) (hidx : idx + gs.length ≤ n) :
    pointGids ov (pre ++ (lids ++ post)) n lids.length pos idx =
      .ok (gs.map fun (k : Nat) => (k : Int)) := by
  induction lids generalizing gs pre pos idx with
  | nil =>
    cases gs with
    | nil => rfl
    | cons g gs => simp [Resolves] at h
  | cons l lids ih =>
    cases gs with
    | nil => simp [Resolves] at h
    | cons g gs =>
      simp only [Resolves, List.map_cons, List.cons.injEq] at h
      rw [List.length_cons] at hidx
      have h1 : readAt (pre ++ (l :: lids ++ post)) pos = .ok l := by
        simpa using readAt_mid pre l (lids ++ post) pos hpos
      have h2 := ih gs h.2 (pre ++ [l]) (pos + 1) (idx + 1) (by simp [hpos]) (by omega)
      rw [show pre ++ [l] ++ (lids ++ post) = pre ++ (l :: lids ++ post) by simp] at h2
      rw [List.length_cons, pointGids, h1]
      simp only
      rw [if_neg (by omega), readAt_eq_ok.2 h.1]
      simp only
      rw [h2]
      rfl

theorem neighborGids_eq (ov : List Nat) (n : Nat) (lists nbs : List (List Nat))
    (h : List.Forall₂ (Resolves ov) lists nbs) (pre : List Nat) (pos idx : Nat) (hpos : pos = pre.length)
    (hidx : idx + (nbs.flatMap fun gs => gs.map fun (k : Nat) => (k : Int)).length ≤ n) :
    neighborGids ov (pre ++ encode lists) n lists.length pos idx =
      .ok (nbs.flatMap fun gs => gs.map fun (k : Nat) => (k : Int)) := by
  induction h generalizing pre pos idx with
  | nil => rfl
  | @cons ls gs lists nbs hr hrest ih =>
    have hl := resolves_length hr
    rw [List.flatMap_cons, List.length_append, List.length_map] at hidx
    have h1 : readAt (pre ++ encode (ls :: lists)) pos = .ok ls.length := by
      rw [encode_cons]; exact readAt_mid _ _ _ _ hpos
    have h2 := pointGids_eq ov n ls gs hr (pre ++ [ls.length]) (encode lists) (pos + 1) idx
      (by simp [hpos]) (by omega)
    rw [show pre ++ [ls.length] ++ (ls ++ encode lists) = pre ++ encode (ls :: lists) by simp] at h2
    have h3 := ih (pre ++ ls.length :: ls) (pos + 1 + ls.length) (idx + ls.length)
      (by simp [hpos]; omega) (by omega)
    rw [show pre ++ ls.length :: ls ++ encode lists = pre ++ encode (ls :: lists) by simp] at h3
    rw [List.length_cons, neighborGids, h1]
    simp only
    rw [h2]
    simp only
    rw [h3]
    rfl

/-- The vectors prepared for the points `G` with bonds `nb`. -/
def preparedContact (nb : Nat → List Nat) (G : List Nat) : MultiVec Int × MultiVec Int :=
  (⟨BlockMap.const G 1, [G.map fun g => (((nb g).length : Nat) : Int)]⟩,
   ⟨bondMapOf nb G, [flatGids nb G]⟩)

theorem prepareContact_eq (nb : Nat → List Nat) (c : Part) (hn : c.owned.Nodup) (h : HoldsBonds nb c) :
    prepareContact c = .ok (preparedContact nb c.owned) := by
  obtain ⟨⟨lists, hl, hr⟩, hb⟩ := h
  simp only at hl hr
  have hb' : c.bond = bondMapOf nb c.owned := hb
  have h1 : allOk (numberOfBonds c.bond) c.owned = .ok (c.owned.map fun g => (((nb g).length : Nat) : Int)) := by
    rw [allOk_iff, List.forall₂_map_right_iff, List.forall₂_same]
    intro g hg
    rw [hb']
    exact numberOfBonds_eq nb c.owned g hg hn
  have hr' : List.Forall₂ (Resolves c.overlap) lists (c.owned.map nb) := by
    rw [List.forall₂_map_right_iff]; exact hr
  have hfl : (c.owned.map nb).flatMap (fun gs => gs.map fun (k : Nat) => (k : Int)) = flatGids nb c.owned := by
    rw [List.flatMap_map]; rfl
  have h2 := neighborGids_eq c.overlap c.bond.numPoints lists _ hr' [] 0 0 rfl (by
    rw [hfl, hb', numPoints_bondMapOf]; omega)
  rw [List.nil_append, hfl, hr.length_eq] at h2
  rw [prepareContact, h1]
  simp only
  rw [hl, h2]
  simp only
  rw [hb', numPoints_bondMapOf, padTo_exact]
  rfl

theorem newBondMap_eq (nb : Nat → List Nat) (O : List Nat) :
    newBondMap O (O.map fun g => (((nb g).length : Nat) : Int)) = bondMapOf nb O := by
  have h : ((O.zip (O.map fun g => (((nb g).length : Nat) : Int))).filter fun x => 0 < x.2) =
      (O.filter fun g => nb g ≠ []).map fun g => (g, (((nb g).length : Nat) : Int)) := by
    induction O with
    | nil => rfl
    | cons o O ih =>
      rw [List.map_cons, List.zip_cons_cons]
      by_cases h : nb o = []
      · rw [List.filter_cons_of_neg (by simp [h]), ih, List.filter_cons_of_neg (by simp [h])]
      · have : 0 < (nb o).length := List.length_pos_iff.2 h
        rw [List.filter_cons_of_pos (by simpa using this), ih, List.filter_cons_of_pos (by simpa using h)]
        rfl
  unfold newBondMap
  simp only [h]
  simp [bondMapOf, Function.comp_def]

theorem readVals_mid (ns : List Int) (pre post : List Int) (pos k : Nat) (hpos : pos = pre.length)
    (hk : k = ns.length) : readVals (pre ++ (ns ++ post)) pos k = .ok ns := by
  subst hk
  induction ns generalizing pre pos with
  | nil => rfl
  | cons n ns ih =>
    have h1 : readAt (pre ++ (n :: ns ++ post)) pos = .ok n := by
      simpa using readAt_mid pre n (ns ++ post) pos hpos
    have h2 := ih (pre ++ [n]) (pos + 1) (by simp [hpos])
    rw [show pre ++ [n] ++ (ns ++ post) = pre ++ (n :: ns ++ post) by simp] at h2
    rw [List.length_cons, readVals, h1]
    simp only
    rw [h2]

theorem bondedNeighbors_eq (nb : Nat → List Nat) (O : List Nat) (g : Nat) (hg : g ∈ O) (hn : O.Nodup) :
    bondedNeighbors (bondMapOf nb O) (flatGids nb O) g = .ok ((nb g).map fun (k : Nat) => (k : Int)) := by
  unfold bondedNeighbors
  by_cases h0 : nb g = []
  · rw [lid_none nb O g h0, h0]; rfl
  · obtain ⟨pre, post, h1, l, h2, h3, h4⟩ := slice nb O g hg hn h0
    rw [h2]
    simp only
    rw [h4]
    simp only
    rw [h1, h3]
    exact readVals_mid _ pre post _ _ rfl (by simp)

theorem searchLoop_eq (nb search : Nat → List Nat) (O : List Nat) (hn : O.Nodup) (gs pre : List Nat)
    (pos : Nat) (hpos : pos = pre.length) (hgs : ∀ g ∈ gs, g ∈ O) :
    searchLoop (bondMapOf nb O) (flatGids nb O) (pre ++ encode (gs.map search)) gs pos =
      .ok (gs.map fun g => (g, unbonded nb search g)) := by
  induction gs generalizing pre pos with
  | nil => rfl
  | cons g gs ih =>
    have h1 : readAt (pre ++ encode ((g :: gs).map search)) pos = .ok (search g).length := by
      rw [List.map_cons, encode_cons]; exact readAt_mid _ _ _ _ hpos
    have h2 : readIds (pre ++ encode ((g :: gs).map search)) (pos + 1) (search g).length = .ok (search g) := by
      have := readIds_mid (pre ++ [(search g).length]) (search g) (encode (gs.map search)) (pos + 1) _
        (by simp [hpos]) rfl
      simpa using this
    have h3 := ih (pre ++ (search g).length :: search g) (pos + 1 + (search g).length)
      (by simp [hpos]; omega) (fun x hx => hgs x (List.mem_cons_of_mem _ hx))
    rw [show pre ++ (search g).length :: search g ++ encode (gs.map search) =
      pre ++ encode ((g :: gs).map search) by simp] at h3
    rw [searchLoop, bondedNeighbors_eq nb O g (hgs g List.mem_cons_self) hn]
    simp only
    rw [h1]
    simp only
    rw [h2]
    simp only
    rw [h3]
    simp only [List.map_cons, unbonded]
    congr 3
    apply List.filter_congr
    intro k _
    simp

theorem contactOf_eq (cn : Nat → List Nat) (O : List Nat) (g : Nat) (hg : g ∈ O) (hn : O.Nodup) :
    contactOf (O.map fun o => (o, cn o)) g = cn g := by
  unfold contactOf
  induction O with
  | nil => cases hg
  | cons o O ih =>
    rw [List.nodup_cons] at hn
    rw [List.map_cons]
    by_cases h : o = g
    · subst h
      rw [List.filter_cons_of_pos (by simp), List.flatMap_cons]
      have : (O.map fun o => (o, cn o)).filter (fun x => decide (x.1 = o)) = [] := by
        rw [List.filter_eq_nil_iff]
        intro x hx
        obtain ⟨y, hy, rfl⟩ := List.mem_map.1 hx
        intro hc
        exact hn.1 (by simp only [decide_eq_true_eq] at hc; exact hc ▸ hy)
      rw [this]; simp
    · rw [List.filter_cons_of_neg (by simpa using h)]
      exact ih ((List.mem_cons.1 hg).resolve_left (fun hc => h hc.symm)) hn.2

theorem mem_ghostIds (nb cn : Nat → List Nat) (O : List Nat) (g : Nat) :
    g ∈ ghostIds O (flatGids nb O) (O.map fun o => (o, cn o)) ↔
      (∃ o ∈ O, g ∈ nb o ∨ g ∈ cn o) ∧ g ∉ O := by
  unfold ghostIds flatGids
  rw [mem_sortUnique]
  simp only [List.mem_append, List.mem_filter, List.mem_map, List.mem_flatMap, decide_eq_true_eq]
  constructor
  · rintro (⟨⟨v, ⟨o, ho, k, hk, rfl⟩, rfl⟩, h2⟩ | ⟨⟨x, ⟨o, ho, rfl⟩, hx⟩, h2⟩)
    · exact ⟨⟨o, ho, Or.inl (by simpa using hk)⟩, h2⟩
    · exact ⟨⟨o, ho, Or.inr hx⟩, h2⟩
  · rintro ⟨⟨o, ho, h | h⟩, h2⟩
    · exact Or.inl ⟨⟨(g : Int), ⟨o, ho, g, h, rfl⟩, by simp⟩, h2⟩
    · exact Or.inr ⟨⟨(o, cn o), ⟨o, ho, rfl⟩, h⟩, h2⟩

theorem bondLists_eq (nb : Nat → List Nat) (O ov gs : List Nat) (hn : O.Nodup) (hgs : ∀ g ∈ gs, g ∈ O)
    (hov : ∀ o ∈ O, ∀ g ∈ nb o, g ∈ ov) :
    bondLists ov (bondMapOf nb O) (flatGids nb O) gs =
      .ok (encode (gs.map fun g => (nb g).map ov.idxOf)) := by
  induction gs with
  | nil => rfl
  | cons g gs ih =>
    have h1 : allOk (fun (v : Int) => checkedLid ov v.toNat) ((nb g).map fun (k : Nat) => (k : Int)) =
        .ok ((nb g).map ov.idxOf) := by
      rw [allOk_iff, List.forall₂_map_left_iff, List.forall₂_map_right_iff, List.forall₂_same]
      intro k hk
      rw [checkedLid, Int.toNat_natCast, if_pos (hov g (hgs g List.mem_cons_self) k hk)]
    rw [bondLists, bondedNeighbors_eq nb O g (hgs g List.mem_cons_self) hn]
    simp only
    rw [h1]
    simp only
    rw [ih fun x hx => hgs x (List.mem_cons_of_mem _ hx)]
    simp

theorem contactLists_eq (cn : Nat → List Nat) (O ov gs : List Nat) (hn : O.Nodup) (hgs : ∀ g ∈ gs, g ∈ O)
    (hov : ∀ o ∈ O, ∀ g ∈ cn o, g ∈ ov) :
    contactLists ov (O.map fun o => (o, cn o)) gs =
      .ok (listOf (gs.map fun g => (cn g).map ov.idxOf)) := by
  induction gs with
  | nil => rfl
  | cons g gs ih =>
    have hg := hgs g List.mem_cons_self
    rw [contactLists, if_neg (by simpa [Function.comp_def] using hg),
      ih fun x hx => hgs x (List.mem_cons_of_mem _ hx)]
    simp only
    rw [contactOf_eq cn O g hg hn]
    have : (cn g).map (rawLid ov) = ((cn g).map ov.idxOf).map fun (k : Nat) => (k : Int) := by
      rw [List.map_map]
      apply List.map_congr_left
      intro k hk
      rw [rawLid, if_pos (hov g hg k hk)]
      rfl
    rw [this]
    simp [listOf]

/-- The result on a processor that shall own `O`. -/
def contactMoved (nb search : Nat → List Nat) (O : List Nat) : Part :=
  let ov := O ++ ghostIds O (flatGids nb O) (O.map fun o => (o, unbonded nb search o))
  ⟨O, ov, encode (O.map fun g => (nb g).map ov.idxOf), bondMapOf nb O, O.map ov.idxOf,
    listOf (O.map fun g => (unbonded nb search g).map ov.idxOf)⟩

theorem mem_overlap (nb cn : Nat → List Nat) (O : List Nat) (o g : Nat) (ho : o ∈ O)
    (hg : g ∈ nb o ∨ g ∈ cn o) :
    g ∈ O ++ ghostIds O (flatGids nb O) (O.map fun o => (o, cn o)) := by
  by_cases hm : g ∈ O
  · exact List.mem_append_left _ hm
  · exact List.mem_append_right _ ((mem_ghostIds nb cn O g).2 ⟨⟨o, ho, hg⟩, hm⟩)

theorem finishContact_eq (nb search : Nat → List Nat) (O : List Nat) (hn : O.Nodup) :
    finishContact O (bondMapOf nb O) (flatGids nb O) (encode (O.map search)) =
      .ok (contactMoved nb search O) := by
  have h1 := searchLoop_eq nb search O hn O [] 0 rfl (fun _ h => h)
  rw [List.nil_append] at h1
  rw [finishContact, h1]
  simp only
  have h2 : allOk (checkedLid (O ++ ghostIds O (flatGids nb O) (O.map fun o => (o, unbonded nb search o)))) O =
      .ok (O.map (O ++ ghostIds O (flatGids nb O) (O.map fun o => (o, unbonded nb search o))).idxOf) := by
    rw [allOk_iff, List.forall₂_map_right_iff, List.forall₂_same]
    intro g hg
    rw [checkedLid, if_pos (List.mem_append_left _ hg)]
  rw [h2]
  simp only
  rw [bondLists_eq nb O _ O hn (fun _ h => h) fun o ho g hg => mem_overlap nb _ O o g ho (Or.inl hg)]
  simp only
  rw [contactLists_eq (unbonded nb search) O _ O hn (fun _ h => h)
    fun o ho g hg => mem_overlap nb _ O o g ho (Or.inr hg)]
  rfl

theorem receiveContact_eq (nb search : Nat → List Nat) (pick1 pick2 : Nat → Nat) (cur : List (List Nat))
    (hn : ∀ G ∈ cur, G.Nodup) (O : List Nat) (hO : O.Nodup)
    (h1 : ∀ g ∈ O, ∃ G, cur[pick1 g]? = some G ∧ g ∈ G)
    (h2 : ∀ g ∈ O, nb g ≠ [] → ∃ G, cur[pick2 g]? = some G ∧ g ∈ G) :
    receiveContact pick1 pick2 (cur.map (preparedContact nb)) O (encode (O.map search)) =
      .ok (contactMoved nb search O) := by
  have e1 : importColumn pick1 ((cur.map (preparedContact nb)).map Prod.fst) 0 (BlockMap.const O 1)
      (List.replicate (BlockMap.const O 1).numPoints 0) =
      O.map fun g => (((nb g).length : Nat) : Int) := by
    rw [importColumn_blocks pick1 _ (fun g => [(((nb g).length : Nat) : Int)])]
    · simp only [BlockMap.const]
      clear h1 h2 hO
      induction O with
      | nil => rfl
      | cons o O ih => simp [ih]
    · intro g hg
      obtain ⟨G, hG, hgG⟩ := h1 g hg
      refine importElement_blocks _ _ _ G (fun g => [(((nb g).length : Nat) : Int)]) ?_ hgG
        (hn G (List.mem_of_getElem? hG))
      rw [List.getElem?_map, List.getElem?_map, hG]
      simp only [Option.map_some, preparedContact, BlockMap.const, List.length_singleton]
      congr 3
      clear hG hgG
      induction G with
      | nil => rfl
      | cons x G ih => simp [ih]
  have e2 : ∀ old, importColumn pick2 ((cur.map (preparedContact nb)).map Prod.snd) 0
      (bondMapOf nb O) old = flatGids nb O := by
    intro old
    rw [importColumn_blocks pick2 _ (fun g => (nb g).map fun (k : Nat) => (k : Int))]
    · exact flatGids_filter nb O
    · intro g hg
      have hg' := List.mem_filter.1 hg
      have hne : nb g ≠ [] := by simpa using hg'.2
      obtain ⟨G, hG, hgG⟩ := h2 g hg'.1 hne
      refine importElement_blocks _ _ _ (G.filter fun g => nb g ≠ [])
        (fun g => (nb g).map fun (k : Nat) => (k : Int)) ?_
        (List.mem_filter.2 ⟨hgG, by simpa using hne⟩) ((hn G (List.mem_of_getElem? hG)).filter _)
      rw [List.getElem?_map, List.getElem?_map, hG]
      simp only [Option.map_some, preparedContact, bondMapOf, List.length_map]
      rw [← flatGids_filter]
      rfl
  unfold receiveContact importMV MultiVec.zeros
  simp only [List.replicate_one, List.mapIdx_cons, List.mapIdx_nil]
  rw [e1, newBondMap_eq, e2]
  exact finishContact_eq nb search O hO

theorem receiveContactAll_eq (nb search : Nat → List Nat) (pick1 pick2 : Nat → Nat → Nat)
    (cur : List (List Nat)) (hn : ∀ G ∈ cur, G.Nodup) (p : Nat) (tgt : List (List Nat × List Nat))
    (hO : ∀ x ∈ tgt, x.1.Nodup) (hs : ∀ x ∈ tgt, x.2 = encode (x.1.map search))
    (h1 : ∀ (k : Nat) x, tgt[k]? = some x → ∀ g ∈ x.1, ∃ G, cur[pick1 (p + k) g]? = some G ∧ g ∈ G)
    (h2 : ∀ (k : Nat) x, tgt[k]? = some x → ∀ g ∈ x.1, nb g ≠ [] →
      ∃ G, cur[pick2 (p + k) g]? = some G ∧ g ∈ G) :
    receiveContactAll pick1 pick2 (cur.map (preparedContact nb)) p tgt =
      .ok (tgt.map fun x => contactMoved nb search x.1) := by
  induction tgt generalizing p with
  | nil => rfl
  | cons x tgt ih =>
    obtain ⟨O, s⟩ := x
    have hs' := hs (O, s) List.mem_cons_self
    simp only at hs'
    subst hs'
    have e1 := receiveContact_eq nb search (pick1 p) (pick2 p) cur hn O (hO _ List.mem_cons_self)
      (fun g hg => by simpa using h1 0 _ rfl g hg) (fun g hg h0 => by simpa using h2 0 _ rfl g hg h0)
    have e2 := ih (p + 1) (fun x hx => hO x (List.mem_cons_of_mem _ hx))
      (fun x hx => hs x (List.mem_cons_of_mem _ hx))
      (fun k x hk g hg => by
        have := h1 (k + 1) x hk g hg
        rwa [show p + (k + 1) = p + 1 + k by omega] at this)
      (fun k x hk g hg h0 => by
        have := h2 (k + 1) x hk g hg h0
        rwa [show p + (k + 1) = p + 1 + k by omega] at this)
    rw [receiveContactAll, e1]
    simp only
    rw [e2]
    rfl

theorem resolves_idxOf (ov gs : List Nat) (h : ∀ g ∈ gs, g ∈ ov) :
    (gs.map ov.idxOf).map (fun l => ov[l]?) = gs.map some := by
  rw [List.map_map]
  apply List.map_congr_left
  intro g hg
  exact readAt_eq_ok.1 (readAt_idxOf _ _ (h g hg))

theorem contactMoved_holds (nb search : Nat → List Nat) (O : List Nat) :
    HoldsBonds nb (contactMoved nb search O) ∧
    HoldsContact (unbonded nb search) (contactMoved nb search O) := by
  refine ⟨⟨⟨_, rfl, ?_⟩, rfl⟩, ?_, _, rfl, ?_⟩
  · rw [List.forall₂_map_left_iff]
    simp only [contactMoved]
    rw [List.forall₂_same]
    intro o ho
    exact resolves_idxOf _ _ fun g hg => mem_overlap nb _ O o g ho (Or.inl hg)
  · exact resolves_idxOf _ _ fun g hg => List.mem_append_left _ hg
  · rw [List.forall₂_map_left_iff]
    simp only [contactMoved]
    rw [List.forall₂_same]
    intro o ho
    exact resolves_idxOf _ _ fun g hg => mem_overlap nb _ O o g ho (Or.inr hg)

end Verif.Contact
