import Verif.Neigh.Rebalance
import Verif.Neigh.Blocks
import Verif.Redist.Import

/-! Lemmas on moving neighbor lists between decompositions. -/

namespace Verif.Neigh

open Verif Verif.Redist

/-- The local ids `lids`, read through the overlap ids `ov`, are the global ids `gs`. -/
def Resolves (ov : List Nat) (lids gs : List Nat) : Prop :=
  lids.map (fun l => ov[l]?) = gs.map some

theorem gidsOf_resolves {ov lids gs : List Nat} (h : Resolves ov lids gs) :
    gidsOf ov lids = .ok gs := by
  induction lids generalizing gs with
  | nil =>
    cases gs with
    | nil => rfl
    | cons g gs => simp [Resolves] at h
  | cons l lids ih =>
    cases gs with
    | nil => simp [Resolves] at h
    | cons g gs =>
      simp only [Resolves, List.map_cons, List.cons.injEq] at h
      have h1 : readAt ov l = .ok g := readAt_eq_ok.2 h.1
      rw [gidsOf, h1]
      simp only
      rw [ih h.2]

theorem resolves_length {ov lids gs : List Nat} (h : Resolves ov lids gs) :
    lids.length = gs.length := by
  have := congrArg List.length h
  simpa [Resolves] using this

theorem countLoop_eq (lists : List (List Nat)) (P : List Nat) (fuel pos : Nat)
    (hpos : pos = P.length) (hf : lists.length ≤ fuel) :
    countLoop (P ++ encode lists) fuel pos = .ok (lists.map List.length) := by
  induction lists generalizing P fuel pos with
  | nil => cases fuel <;> simp [countLoop, hpos]
  | cons ns lists ih =>
    cases fuel with
    | zero => simp at hf
    | succ fuel =>
      have h1 : readAt (P ++ encode (ns :: lists)) pos = .ok ns.length := by
        rw [encode_cons]; exact readAt_mid _ _ _ _ hpos
      have h2 := ih (P ++ ns.length :: ns) fuel (pos + 1 + ns.length) (by simp [hpos]; omega)
        (by simpa using hf)
      rw [show P ++ ns.length :: ns ++ encode lists = P ++ encode (ns :: lists) by simp] at h2
      rw [countLoop, if_pos (by simp [hpos]), h1]
      simp only
      rw [h2]
      rfl

theorem length_le_encode (lists : List (List Nat)) : lists.length ≤ (encode lists).length := by
  induction lists with
  | nil => simp
  | cons ns lists ih => simp; omega

/-- The imported block of a point with neighbors `ns`. -/
def nbBlock (ns : List Nat) : List Int :=
  if ns = [] then [-1] else ns.map fun (g : Nat) => (g : Int)

theorem neighborValues_eq (ov : List Nat) (lists : List (List Nat)) (nbs : List (List Nat))
    (h : List.Forall₂ (Resolves ov) lists nbs) (P : List Nat) (n pos : Nat) (hpos : pos = P.length)
    (hn : n = lists.length) :
    neighborValues ov (P ++ encode lists) n pos = .ok (nbs.flatMap nbBlock) := by
  subst hn
  induction h generalizing P pos with
  | nil => rfl
  | @cons ls gs lists nbs hr hrest ih =>
    have h1 : readAt (P ++ encode (ls :: lists)) pos = .ok ls.length := by
      rw [encode_cons]; exact readAt_mid _ _ _ _ hpos
    have h2 : readIds (P ++ encode (ls :: lists)) (pos + 1) ls.length = .ok ls := by
      have := readIds_mid (P ++ [ls.length]) ls (encode lists) (pos + 1) ls.length (by simp [hpos]) rfl
      simpa using this
    have h3 := ih (P ++ ls.length :: ls) (pos + 1 + ls.length) (by simp [hpos]; omega)
    rw [show P ++ ls.length :: ls ++ encode lists = P ++ encode (ls :: lists) by simp] at h3
    have hl := resolves_length hr
    rw [List.length_cons, neighborValues, h1]
    simp only
    rw [h2]
    simp only
    rw [gidsOf_resolves hr]
    simp only
    rw [h3]
    simp only [List.flatMap_cons, nbBlock]
    by_cases h0 : gs = []
    · subst h0
      rw [if_pos (by simpa using hl), if_pos rfl]; rfl
    · rw [if_neg (by
        intro hc
        exact h0 (List.length_eq_zero_iff.1 (by omega))), if_neg h0]

theorem elementSizes_eq (nbs : List (List Nat)) :
    elementSizes (nbs.map fun ns => ((ns.length : Nat) : Int)) =
      nbs.map fun ns => (nbBlock ns).length := by
  unfold elementSizes
  rw [List.map_map]
  apply List.map_congr_left
  intro ns _
  simp only [Function.comp_apply, nbBlock]
  by_cases h : ns = []
  · simp [h]
  · have : (ns.length : Int) ≠ 0 := by
      simpa using h
    simp [h]

theorem padTo_exact (vs : List Int) : padTo vs.length vs = .ok vs := by simp [padTo]

/-- The two vectors prepared for the points `G` with neighbors `nb`. -/
def preparedOf (nb : Nat → List Nat) (G : List Nat) : MultiVec Int × MultiVec Int :=
  (⟨BlockMap.const G 1, [G.map fun g => (((nb g).length : Nat) : Int)]⟩,
   ⟨⟨G, G.map fun g => (nbBlock (nb g)).length⟩, [G.flatMap fun g => nbBlock (nb g)]⟩)

theorem prepare_eq (nb : Nat → List Nat) (c : NbPart) (lists : List (List Nat))
    (hl : c.list = encode lists) (hr : List.Forall₂ (Resolves c.overlap) lists (c.owned.map nb)) :
    prepare c = .ok (preparedOf nb c.owned) := by
  have hlen : lists.length = c.owned.length := by simpa using hr.length_eq
  have hcounts : lists.map List.length = c.owned.map fun g => (nb g).length := by
    have h1 : ∀ (a b : List (List Nat)), List.Forall₂ (Resolves c.overlap) a b →
        a.map List.length = b.map List.length := by
      intro a b h
      induction h with
      | nil => rfl
      | cons h _ ih => simp [resolves_length h, ih]
    simpa [Function.comp_def] using h1 _ _ hr
  have h1 := countLoop_eq lists [] (encode lists).length 0 rfl (length_le_encode lists)
  rw [List.nil_append] at h1
  have h2 := neighborValues_eq c.overlap lists _ hr [] c.owned.length 0 rfl hlen.symm
  rw [List.nil_append] at h2
  have h3 : currentCounts c.owned c.list = .ok (c.owned.map fun g => (((nb g).length : Nat) : Int)) := by
    unfold currentCounts
    rw [hl, h1]
    simp only
    rw [hcounts, List.map_map]
    have := padTo_exact (c.owned.map fun g => (((nb g).length : Nat) : Int))
    rw [List.length_map] at this
    exact this
  have h4 : elementSizes (c.owned.map fun g => (((nb g).length : Nat) : Int)) =
      c.owned.map fun g => (nbBlock (nb g)).length := by
    have := elementSizes_eq (c.owned.map nb)
    simpa [Function.comp_def] using this
  unfold prepare
  rw [h3]
  simp only
  rw [hl, h2]
  simp only [BlockMap.numPoints]
  rw [h4]
  have h5 : (c.owned.map fun g => (nbBlock (nb g)).length).sum =
      ((c.owned.map nb).flatMap nbBlock).length := by
    rw [List.length_flatMap]; simp [Function.comp_def]
  rw [h5, padTo_exact]
  simp only [preparedOf, List.flatMap_map]

/-! ### Imports -/

theorem importElement_blocks (srcs : DistMV Int) (q gid : Nat) (G : List Nat) (blk : Nat → List Int)
    (hq : srcs[q]? = some ⟨⟨G, G.map fun g => (blk g).length⟩, [G.flatMap blk]⟩) (hg : gid ∈ G)
    (hn : G.Nodup) : importElement srcs q 0 gid = some (blk gid) := by
  obtain ⟨A, B, rfl⟩ := List.append_of_mem hg
  have hnot : gid ∉ A := by
    rw [List.nodup_append] at hn
    intro h
    exact hn.2.2 gid h gid (by simp) rfl
  have hidx : (A ++ gid :: B).idxOf gid = A.length := by
    rw [List.idxOf_append_of_notMem hnot, List.idxOf_cons_self]; simp
  unfold importElement BlockMap.lid BlockMap.firstPoint
  simp only [hq, hidx, hg, if_true, List.getElem?_cons_zero]
  have h1 : ((A ++ gid :: B).map fun g => (blk g).length)[A.length]? = some (blk gid).length := by
    simp
  rw [h1, Option.map_some]
  congr 1
  rw [List.map_append, List.take_left' (by simp), List.flatMap_append,
    List.drop_left' (by rw [List.length_flatMap]), List.flatMap_cons, List.take_left' rfl]

theorem importColumn_blocks (pick : Nat → Nat) (srcs : DistMV Int) (blk : Nat → List Int)
    (tm : BlockMap) (old : List Int)
    (h : ∀ g ∈ tm.gids, importElement srcs (pick g) 0 g = some (blk g)) :
    importColumn pick srcs 0 tm old = tm.gids.flatMap blk := by
  unfold importColumn
  rw [List.flatMap_def]
  congr 1
  apply List.ext_getElem
  · simp
  · intro l h1 h2
    simp only [List.getElem_mapIdx, List.getElem_map]
    rw [h _ (List.getElem_mem _)]

/-! ### Filling the new list -/

theorem fillIds_eq (ov ns : List Nat) (pre post : List Int) (pos k : Nat) (hpos : pos = pre.length)
    (hk : k = ns.length) (hov : ∀ g ∈ ns, g ∈ ov) :
    fillIds ov (pre ++ (ns.map (fun (g : Nat) => (g : Int)) ++ post)) pos k =
      .ok (ns.map ov.idxOf) := by
  subst hk
  induction ns generalizing pre pos with
  | nil => rfl
  | cons n ns ih =>
    have h1 : readAt (pre ++ ((n :: ns).map (fun (g : Nat) => (g : Int)) ++ post)) pos
        = .ok (n : Int) := by
      simpa using readAt_mid pre (n : Int) (ns.map (fun (g : Nat) => (g : Int)) ++ post) pos hpos
    have h2 := ih (pre ++ [(n : Int)]) (pos + 1) (by simp [hpos])
      fun x hx => hov x (List.mem_cons_of_mem _ hx)
    rw [show pre ++ [(n : Int)] ++ (ns.map (fun (g : Nat) => (g : Int)) ++ post) =
      pre ++ ((n :: ns).map (fun (g : Nat) => (g : Int)) ++ post) by simp] at h2
    rw [List.length_cons, fillIds, h1]
    simp only [Int.toNat_natCast]
    rw [lidOf_mem (hov n List.mem_cons_self)]
    simp only
    rw [h2]
    rfl

theorem fillList_eq (nb : Nat → List Nat) (ov : List Nat) (O A : List Nat) (gids : List Nat) (i : Nat)
    (hi : i = A.length) (hov : ∀ o ∈ O, ∀ g ∈ nb o, g ∈ ov) :
    fillList ⟨gids, (A ++ O).map fun g => (nbBlock (nb g)).length⟩ ov
        ((A ++ O).flatMap fun g => nbBlock (nb g)) i (O.map fun g => (((nb g).length : Nat) : Int)) =
      .ok (encode (O.map fun g => (nb g).map ov.idxOf)) := by
  induction O generalizing A i with
  | nil => rfl
  | cons o O ih =>
    have h2 := ih (A ++ [o]) (i + 1) (by simp [hi]) fun x hx => hov x (List.mem_cons_of_mem _ hx)
    rw [show A ++ [o] ++ O = A ++ o :: O by simp] at h2
    have hfp : (BlockMap.mk gids ((A ++ o :: O).map fun g => (nbBlock (nb g)).length)).firstPoint i =
        (A.flatMap fun g => nbBlock (nb g)).length := by
      unfold BlockMap.firstPoint
      simp only
      rw [List.map_append, List.take_left' (by simp [hi]), List.length_flatMap]
    have h1 : fillIds ov ((A ++ o :: O).flatMap fun g => nbBlock (nb g))
        (A.flatMap fun g => nbBlock (nb g)).length (nb o).length = .ok ((nb o).map ov.idxOf) := by
      by_cases h0 : nb o = []
      · simp [h0, fillIds]
      · have := fillIds_eq ov (nb o) (A.flatMap fun g => nbBlock (nb g))
          (O.flatMap fun g => nbBlock (nb g)) _ _ rfl rfl (hov o List.mem_cons_self)
        rw [List.flatMap_append, List.flatMap_cons]
        rw [show nbBlock (nb o) = (nb o).map (fun (g : Nat) => (g : Int)) by simp [nbBlock, h0]]
        exact this
    rw [List.map_cons, fillList]
    simp only [Int.toNat_natCast]
    rw [hfp, h1]
    simp only
    rw [h2]
    simp

theorem mem_offProcIds (nb : Nat → List Nat) (O : List Nat) (g : Nat) :
    g ∈ offProcIds O (O.flatMap fun o => nbBlock (nb o)) ↔ (∃ o ∈ O, g ∈ nb o) ∧ g ∉ O := by
  unfold offProcIds
  rw [mem_sortUnique]
  simp only [List.mem_map, List.mem_filter, List.mem_flatMap, decide_eq_true_eq]
  constructor
  · rintro ⟨v, ⟨⟨o, ho, hv⟩, hne, hnot⟩, rfl⟩
    unfold nbBlock at hv
    split at hv
    · simp at hv; exact absurd hv hne
    · obtain ⟨x, hx, rfl⟩ := List.mem_map.1 hv
      exact ⟨⟨o, ho, by simpa using hx⟩, by simpa using hnot⟩
  · rintro ⟨⟨o, ho, hg⟩, hnot⟩
    refine ⟨(g : Int), ⟨⟨o, ho, ?_⟩, by omega, by simpa using hnot⟩, by simp⟩
    unfold nbBlock
    rw [if_neg (List.ne_nil_of_mem hg)]
    exact List.mem_map_of_mem hg

/-- The result on a processor that shall own `O`. -/
def movedTo (nb : Nat → List Nat) (O : List Nat) : NbPart :=
  let ov := O ++ offProcIds O (O.flatMap fun o => nbBlock (nb o))
  ⟨O, ov, encode (O.map fun g => (nb g).map ov.idxOf)⟩

theorem receive_eq (nb : Nat → List Nat) (pick1 pick2 : Nat → Nat) (cur : List (List Nat))
    (hn : ∀ G ∈ cur, G.Nodup) (O : List Nat)
    (h1 : ∀ g ∈ O, ∃ G, cur[pick1 g]? = some G ∧ g ∈ G)
    (h2 : ∀ g ∈ O, ∃ G, cur[pick2 g]? = some G ∧ g ∈ G) :
    receive pick1 pick2 (cur.map (preparedOf nb)) O = .ok (movedTo nb O) := by
  have e1 : importColumn pick1 ((cur.map (preparedOf nb)).map Prod.fst) 0 (BlockMap.const O 1)
      (List.replicate (BlockMap.const O 1).numPoints 0) =
      O.map fun g => (((nb g).length : Nat) : Int) := by
    rw [importColumn_blocks pick1 _ (fun g => [(((nb g).length : Nat) : Int)])]
    · simp only [BlockMap.const]
      induction O with
      | nil => rfl
      | cons o O ih =>
        simp [ih (fun g hg => h1 g (List.mem_cons_of_mem _ hg))
          (fun g hg => h2 g (List.mem_cons_of_mem _ hg))]
    · intro g hg
      obtain ⟨G, hG, hgG⟩ := h1 g hg
      refine importElement_blocks _ _ _ G (fun g => [(((nb g).length : Nat) : Int)]) ?_ hgG
        (hn G (List.mem_of_getElem? hG))
      rw [List.getElem?_map, List.getElem?_map, hG]
      simp only [Option.map_some, preparedOf, BlockMap.const, List.length_singleton]
      congr 3
      clear hG hgG
      induction G with
      | nil => rfl
      | cons x G ih => simp [ih]
  have e2 : ∀ old, importColumn pick2 ((cur.map (preparedOf nb)).map Prod.snd) 0
      ⟨O, O.map fun g => (nbBlock (nb g)).length⟩ old = O.flatMap fun g => nbBlock (nb g) := by
    intro old
    rw [importColumn_blocks pick2 _ (fun g => nbBlock (nb g))]
    intro g hg
    obtain ⟨G, hG, hgG⟩ := h2 g hg
    refine importElement_blocks _ _ _ G (fun g => nbBlock (nb g)) ?_ hgG
      (hn G (List.mem_of_getElem? hG))
    rw [List.getElem?_map, List.getElem?_map, hG]
    rfl
  have h4 : elementSizes (O.map fun g => (((nb g).length : Nat) : Int)) =
      O.map fun g => (nbBlock (nb g)).length := by
    have := elementSizes_eq (O.map nb)
    simpa [Function.comp_def] using this
  unfold receive importMV MultiVec.zeros
  simp only [List.replicate_one, List.mapIdx_cons, List.mapIdx_nil]
  rw [e1]
  unfold finish
  simp only [MultiVec.zeros, List.replicate_one, List.mapIdx_cons, List.mapIdx_nil]
  rw [h4, e2]
  have h5 := fillList_eq nb (O ++ offProcIds O (O.flatMap fun g => nbBlock (nb g))) O [] O 0 rfl (by
    intro o ho g hg
    by_cases hm : g ∈ O
    · exact List.mem_append_left _ hm
    · exact List.mem_append_right _ ((mem_offProcIds nb O g).2 ⟨⟨o, ho, hg⟩, hm⟩))
  rw [List.nil_append] at h5
  rw [h5]
  rfl

theorem receiveAll_eq (nb : Nat → List Nat) (pick1 pick2 : Nat → Nat → Nat) (cur : List (List Nat))
    (hn : ∀ G ∈ cur, G.Nodup) (p : Nat) (tgt : List (List Nat))
    (h1 : ∀ (k : Nat) O, tgt[k]? = some O → ∀ g ∈ O, ∃ G, cur[pick1 (p + k) g]? = some G ∧ g ∈ G)
    (h2 : ∀ (k : Nat) O, tgt[k]? = some O → ∀ g ∈ O, ∃ G, cur[pick2 (p + k) g]? = some G ∧ g ∈ G) :
    receiveAll pick1 pick2 (cur.map (preparedOf nb)) p tgt = .ok (tgt.map (movedTo nb)) := by
  induction tgt generalizing p with
  | nil => rfl
  | cons O tgt ih =>
    have e1 := receive_eq nb (pick1 p) (pick2 p) cur hn O (h1 0 O rfl) (h2 0 O rfl)
    have e2 := ih (p + 1) (fun k O hk => by
        have := h1 (k + 1) O (by simpa using hk); rwa [show p + (k + 1) = p + 1 + k by omega] at this)
      (fun k O hk => by
        have := h2 (k + 1) O (by simpa using hk); rwa [show p + (k + 1) = p + 1 + k by omega] at this)
    rw [receiveAll, e1]
    simp only
    rw [e2]
    rfl

end Verif.Neigh
