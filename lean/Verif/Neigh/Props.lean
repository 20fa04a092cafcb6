import Verif.Neigh.Blocks

/-!
# Properties C09, C10 and C11: neighborhood lists and blocks
-/

namespace Verif.Neigh

open Verif

/-! ### C09 -/

/-- C09, first part: the flat list determines the neighborhoods, also when some of them are empty. -/
theorem C09_unique (a b : List (List Nat)) (h : encode a = encode b) : a = b := encode_injective h

/-- C09, second part: walking over the flat list of any neighborhoods ends normally (no read outside
the list, whatever is or is not stored behind it), visits the bonds of the points in order, each once,
and runs through the bond data position by position. -/
theorem C09_visits (nbs : List (List Nat)) (rest : List Nat) :
    ∃ bs, visitedBonds nbs.length (encode nbs ++ rest) = .ok bs ∧
      bs.map (fun x => (x.i, x.j)) = nbs.zipIdx.flatMap (fun x => x.1.map fun j => (x.2, j)) ∧
      bs.map Bond.b = List.range (nbs.map List.length).sum := by
  refine ⟨bondsFrom nbs 0 0, ?_, bondsFrom_pairs nbs 0 0, ?_⟩
  · simpa [visitedBonds] using outerLoop_mid nbs [] rest 0 0 0 nbs.length rfl rfl
  · rw [bondsFrom_index, List.range_eq_range']

example : visitedBonds 3 (encode [[4, 5], [], [7]]) = .ok [⟨0, 4, 0⟩, ⟨0, 5, 1⟩, ⟨2, 7, 2⟩] := by decide

/-- C09, third part: access through the pointer array finds the same neighbors. -/
theorem C09_pointer (nbs : List (List Nat)) (i : Nat) (ns : List Nat) (hi : nbs[i]? = some ns) :
    ∃ pos, (offsets nbs)[i]? = some pos ∧ neighborsAt (encode nbs) pos = .ok ns := by
  obtain ⟨h, rfl⟩ := List.getElem?_eq_some_iff.1 hi
  exact ⟨_, offsets_get nbs i h, neighborsAt_get nbs i h⟩

example : (offsets [[4, 5], [], [7]])[2]? = some 4 ∧ neighborsAt (encode [[4, 5], [], [7]]) 4 = .ok [7] := by
  decide

/-- The reads are counted exactly: on a list that lacks even one entry the walk leaves the list. -/
theorem C09_no_slack (nbs : List (List Nat)) (l : List Nat) (hp : l <+: encode nbs)
    (hl : l ≠ encode nbs) : visitedBonds nbs.length l = .ub := by
  have hlt : l.length < (encode nbs).length := by
    rcases Nat.lt_or_ge l.length (encode nbs).length with h | h
    · exact h
    · exact absurd (hp.eq_of_length_le h) hl
  have hn : nbs ≠ [] := by rintro rfl; simp at hlt
  exact outerLoop_short nbs [] l 0 0 0 rfl hp hlt hn (Nat.zero_le _)

example : [2, 4, 5, 0, 1] <+: encode [[4, 5], [], [7]] ∧ [2, 4, 5, 0, 1] ≠ encode [[4, 5], [], [7]] := by
  decide

/-! ### C10 -/

/-- C10: for every mesh (distinct global ids, any neighbor lists, any block assignment) every block
is built without error, and for each of its points, owned by it at position `k`, the neighbors stored
in the block are valid local ids and are, by global id and in order, the neighbors of the mesh. -/
theorem C10_block_neighbors (T : List Pt) (hT : (T.map Pt.gid).Nodup) (b : Nat) :
    ∃ blk, meshBlock T b = .ok blk ∧
      ∀ (k : Nat) (t : Pt), t ∈ T → blk.maps.owned[k]? = some t.gid →
        (∃ l, blk.data.ownedIDs[k]? = some l ∧ blk.maps.overlap[l]? = some t.gid) ∧
        ∃ pos lids, blk.data.ptr[k]? = some pos ∧ neighborsAt blk.data.list pos = .ok lids ∧
          lids.map (fun l => blk.maps.overlap[l]?) = t.nbrs.map some := by
  refine ⟨_, meshBlock_eq T hT b, ?_⟩
  intro k t ht hk
  simp only [mapsOf, ownOf, List.getElem?_map, Option.map_eq_some_iff] at hk
  obtain ⟨t', hk', hgid⟩ := hk
  have ht' : t' ∈ inBlock T b := List.mem_of_getElem? hk'
  have htt : t' = t := List.inj_on_of_nodup_map hT (List.mem_filter.1 ht').1 ht hgid
  subst htt
  have hget : ∀ g ∈ (mapsOf T b).overlap,
      (mapsOf T b).overlap[(mapsOf T b).overlap.idxOf g]? = some g := fun g hg =>
    readAt_eq_ok.1 (readAt_idxOf _ _ hg)
  constructor
  · refine ⟨(mapsOf T b).overlap.idxOf t'.gid, by simp [blockData, hk'], hget _ ?_⟩
    exact List.mem_append_left _ (List.mem_map_of_mem ht')
  · obtain ⟨pos, h1, h2⟩ := C09_pointer
      ((inBlock T b).map fun t => t.nbrs.map (mapsOf T b).overlap.idxOf) k
      (t'.nbrs.map (mapsOf T b).overlap.idxOf) (by simp [hk'])
    have h3 : offsets ((inBlock T b).map fun t => t.nbrs.map (mapsOf T b).overlap.idxOf) =
        offsets ((inBlock T b).map Pt.nbrs) := by
      rw [← offsets_map (mapsOf T b).overlap.idxOf ((inBlock T b).map Pt.nbrs), List.map_map]; rfl
    rw [h3] at h1
    refine ⟨pos, _, h1, h2, ?_⟩
    rw [List.map_map]
    apply List.map_congr_left
    intro g hg
    exact hget g (mem_mapsOf ht' hg)

/-- A mesh with two blocks, a point without neighbors and a neighbor on another processor. -/
def demoMesh : List Pt := [⟨3, [8, 1], 1⟩, ⟨1, [3], 2⟩, ⟨5, [], 1⟩]

example : (demoMesh.map Pt.gid).Nodup ∧ meshBlock demoMesh 1 = .ok
    ⟨⟨[3, 5], [3, 5, 1, 8], ⟨[3], [2]⟩⟩, ⟨[0, 1], [2, 3, 2, 0], [0, 3]⟩⟩ := by decide

/-- C10, as a kernel sees it: walking over the block's list visits exactly the bonds of the block's
points, in the order of the mesh, and all ids it reads are valid local ids of the block. -/
theorem C10_block_bonds (T : List Pt) (hT : (T.map Pt.gid).Nodup) (b : Nat) :
    ∃ blk bs, meshBlock T b = .ok blk ∧
      visitedBonds blk.data.ownedIDs.length blk.data.list = .ok bs ∧
      bs.map (fun x => (blk.maps.overlap[x.i]?, blk.maps.overlap[x.j]?)) =
        (T.filter fun t => t.block = b).flatMap
          (fun t => t.nbrs.map fun g => (some t.gid, some g)) := by
  obtain ⟨bs, h1, h2, _⟩ := C09_visits
    ((inBlock T b).map fun t => t.nbrs.map (mapsOf T b).overlap.idxOf) []
  rw [List.append_nil, List.length_map] at h1
  refine ⟨_, bs, meshBlock_eq T hT b, by simpa [blockData] using h1, ?_⟩
  have e : bs.map (fun x => ((mapsOf T b).overlap[x.i]?, (mapsOf T b).overlap[x.j]?)) =
      (bs.map fun x => (x.i, x.j)).map
        (fun x => ((mapsOf T b).overlap[x.1]?, (mapsOf T b).overlap[x.2]?)) := by
    rw [List.map_map]; rfl
  simp only
  rw [e, h2, List.map_flatMap]
  have hget : ∀ g ∈ (mapsOf T b).overlap,
      (mapsOf T b).overlap[(mapsOf T b).overlap.idxOf g]? = some g := fun g hg =>
    readAt_eq_ok.1 (readAt_idxOf _ _ hg)
  have key : ∀ (pre S : List Pt), pre ++ S = inBlock T b →
      ((S.map fun t => t.nbrs.map (mapsOf T b).overlap.idxOf).zipIdx pre.length).flatMap
        (fun x => List.map (fun x => ((mapsOf T b).overlap[x.1]?, (mapsOf T b).overlap[x.2]?))
          (x.1.map fun j => (x.2, j))) =
      S.flatMap fun t => t.nbrs.map fun g => (some t.gid, some g) := by
    intro pre S
    induction S generalizing pre with
    | nil => intro _; rfl
    | cons t S ih =>
      intro hS
      have h3 := ih (pre ++ [t]) (by simp [hS])
      have htm : t ∈ inBlock T b := by rw [← hS]; simp
      have hi : (mapsOf T b).overlap[pre.length]? = some t.gid := by
        have h4 : (ownOf T b)[pre.length]? = some t.gid := by
          simp [ownOf, ← hS]
        have h5 := (List.getElem?_eq_some_iff.1 h4).1
        simp only [mapsOf]
        rw [List.getElem?_append_left h5, h4]
      simp only [List.length_append, List.length_cons, List.length_nil, Nat.zero_add] at h3
      simp only [List.map_cons, List.zipIdx_cons, List.flatMap_cons]
      rw [h3]
      congr 1
      rw [List.map_map, List.map_map]
      apply List.map_congr_left
      intro g hg
      simp only [Function.comp_apply, hi, hget g (mem_mapsOf htm hg)]
  exact key [] (inBlock T b) rfl

example : ((demoMesh.filter fun t => t.block = 1).flatMap
    (fun t => t.nbrs.map fun g => (some t.gid, some g))) = [(some 3, some 8), (some 3, some 1)] := by
  decide

/-! ### C11 -/

/-- C11: every owned point belongs to exactly one block. -/
theorem C11_partition (T : List Pt) (hT : (T.map Pt.gid).Nodup) (t : Pt) (ht : t ∈ T) :
    ∃! b, ∃ blk, meshBlock T b = .ok blk ∧ t.gid ∈ blk.maps.owned := by
  refine ⟨t.block, ⟨_, meshBlock_eq T hT _, ?_⟩, ?_⟩
  · exact List.mem_map_of_mem (List.mem_filter.2 ⟨ht, by simp⟩)
  · rintro b ⟨blk, h1, h2⟩
    rw [meshBlock_eq T hT b, Outcome.ok.injEq] at h1
    subst h1
    obtain ⟨t', ht', hg⟩ := List.mem_map.1 h2
    have h3 := List.mem_filter.1 ht'
    have := List.inj_on_of_nodup_map hT h3.1 ht hg
    subst this
    exact (by simpa using h3.2 : t'.block = b).symm

example : (⟨1, [3], 2⟩ : Pt) ∈ demoMesh := by decide

/-- C11: the points owned by a block are those assigned to it, in mesh order; the overlap map lists
them first and then exactly the neighbors the block does not own; no id occurs twice. -/
theorem C11_maps (T : List Pt) (hT : (T.map Pt.gid).Nodup) (b : Nat) :
    ∃ blk ghosts, meshBlock T b = .ok blk ∧
      blk.maps.owned = (T.filter fun t => t.block = b).map Pt.gid ∧
      blk.maps.overlap = blk.maps.owned ++ ghosts ∧ blk.maps.overlap.Nodup ∧
      ∀ g, g ∈ ghosts ↔ (∃ t ∈ T, t.block = b ∧ g ∈ t.nbrs) ∧ g ∉ blk.maps.owned := by
  refine ⟨_, ghostsOf T b, meshBlock_eq T hT b, rfl, rfl, mapsOf_nodup hT b, ?_⟩
  intro g
  simp only [ghostsOf, mem_sortUnique, List.mem_filter, List.mem_flatMap, inBlock, mapsOf,
    decide_eq_true_eq]
  constructor
  · rintro ⟨⟨t, ⟨h1, h2⟩, h3⟩, h4⟩; exact ⟨⟨t, h1, h2, h3⟩, h4⟩
  · rintro ⟨⟨t, h1, h2, h3⟩, h4⟩; exact ⟨⟨t, ⟨h1, h2⟩, h3⟩, h4⟩

example : ∃ blk, meshBlock demoMesh 2 = .ok blk ∧ blk.maps.overlap = [1] ++ [3] :=
  ⟨⟨⟨[1], [1, 3], ⟨[1], [1]⟩⟩, ⟨[0], [1, 1], [0]⟩⟩, by decide, rfl⟩

theorem bondsOf_split (S A B : List Pt) (t : Pt) (hS : S = A ++ t :: B)
    (hn : (S.map Pt.gid).Nodup) (h0 : 0 < t.nbrs.length) :
    ∃ l, (bondsOf S).lid t.gid = some l ∧ (bondsOf S).sizes[l]? = some t.nbrs.length ∧
      (bondsOf S).firstPoint l = (A.map fun t => t.nbrs.length).sum := by
  subst hS
  set F := (A.filter fun t => 0 < t.nbrs.length) with hF
  have hfil : (A ++ t :: B).filter (fun t => 0 < t.nbrs.length) =
      F ++ t :: B.filter fun t => 0 < t.nbrs.length := by
    rw [List.filter_append, List.filter_cons_of_pos (by simpa using h0)]
  have hsum : ∀ A : List Pt, (((A.filter fun t => 0 < t.nbrs.length)).map fun t => t.nbrs.length).sum
      = (A.map fun t => t.nbrs.length).sum := by
    intro A
    induction A with
    | nil => rfl
    | cons a A ih =>
      by_cases ha : 0 < a.nbrs.length
      · rw [List.filter_cons_of_pos (by simpa using ha)]; simp [ih]
      · rw [List.filter_cons_of_neg (by simpa using ha), ih, List.map_cons, List.sum_cons]; omega
  refine ⟨F.length, ?_, ?_, ?_⟩
  · unfold BlockMap.lid bondsOf
    simp only [hfil, List.map_append, List.map_cons]
    rw [if_pos (by simp)]
    have hnot : t.gid ∉ F.map Pt.gid := by
      intro hm
      rw [List.map_append, List.map_cons, List.nodup_append] at hn
      obtain ⟨a, ha, hag⟩ := List.mem_map.1 hm
      exact hn.2.2 a.gid (List.mem_map_of_mem (List.mem_filter.1 ha).1) t.gid (by simp) hag
    rw [List.idxOf_append_of_notMem hnot, List.idxOf_cons_self]
    simp
  · simp [bondsOf, hfil]
  · unfold BlockMap.firstPoint bondsOf
    simp only [hfil, List.map_append, List.map_cons]
    rw [List.take_left' (by simp), hsum]

theorem mem_bondsFrom (nbs : List (List Nat)) (p b : Nat) (x : Bond) (h : x ∈ bondsFrom nbs p b) :
    ∃ A ns B n, nbs = A ++ ns :: B ∧ x.i = p + A.length ∧ ns[n]? = some x.j ∧
      x.b = b + (A.map List.length).sum + n := by
  induction nbs generalizing p b with
  | nil => cases h
  | cons ns nbs ih =>
    rw [bondsFrom, List.mem_append] at h
    rcases h with h | h
    · unfold pointBonds at h
      obtain ⟨⟨j, n⟩, hm, rfl⟩ := List.mem_map.1 h
      rw [List.mem_zipIdx_iff_le_and_getElem?_sub] at hm
      exact ⟨[], ns, nbs, n - b, rfl, by simp, hm.2, by have := hm.1; simp at this ⊢; omega⟩
    · obtain ⟨A, ns', B, n, h1, h2, h3, h4⟩ := ih _ _ h
      exact ⟨ns :: A, ns', B, n, by simp [h1], by simp [h2]; omega, h3, by simp [h4]; omega⟩

/-- C11, bond storage: the bond map of a block has an element exactly for the points of the block
with at least one bond, as many entries as the point has bonds, and the position that a kernel uses
for a bond is the position of that bond inside the element of its point. -/
theorem C11_bond_storage (T : List Pt) (hT : (T.map Pt.gid).Nodup) (b : Nat) :
    ∃ blk bs, meshBlock T b = .ok blk ∧ blk.maps.bonds.WF ∧
      (∀ g, g ∈ blk.maps.bonds.gids ↔ ∃ t ∈ T, t.block = b ∧ t.gid = g ∧ t.nbrs ≠ []) ∧
      (∀ t ∈ T, t.block = b → t.nbrs ≠ [] → ∃ l, blk.maps.bonds.lid t.gid = some l ∧
        blk.maps.bonds.sizes[l]? = some t.nbrs.length) ∧
      visitedBonds blk.data.ownedIDs.length blk.data.list = .ok bs ∧
      ∀ x ∈ bs, ∃ t l n, t ∈ T ∧ blk.maps.owned[x.i]? = some t.gid ∧
        (t.nbrs[n]?).isSome ∧ blk.maps.overlap[x.j]? = t.nbrs[n]? ∧
        blk.maps.bonds.lid t.gid = some l ∧ x.b = blk.maps.bonds.firstPoint l + n := by
  have hnd : ((inBlock T b).map Pt.gid).Nodup := hT.sublist (List.filter_sublist.map _)
  refine ⟨_, bondsFrom ((inBlock T b).map fun t => t.nbrs.map (mapsOf T b).overlap.idxOf) 0 0,
    meshBlock_eq T hT b, ⟨by simp [mapsOf, bondsOf], ?_⟩, ?_, ?_, ?_, ?_⟩
  · exact hnd.sublist (List.filter_sublist.map _)
  · intro g
    simp only [mapsOf, bondsOf, inBlock, List.mem_map, List.mem_filter, decide_eq_true_eq]
    constructor
    · rintro ⟨t, ⟨⟨h1, h2⟩, h3⟩, h4⟩
      exact ⟨t, h1, h2, h4, List.ne_nil_of_length_pos h3⟩
    · rintro ⟨t, h1, h2, h3, h4⟩
      exact ⟨t, ⟨⟨h1, h2⟩, List.length_pos_iff.2 h4⟩, h3⟩
  · intro t ht hb h0
    obtain ⟨A, B, hAB⟩ := List.append_of_mem (show t ∈ inBlock T b from
      List.mem_filter.2 ⟨ht, by simpa using hb⟩)
    obtain ⟨l, h1, h2, _⟩ := bondsOf_split _ A B t hAB hnd (List.length_pos_iff.2 h0)
    exact ⟨l, h1, h2⟩
  · have := outerLoop_mid ((inBlock T b).map fun t => t.nbrs.map (mapsOf T b).overlap.idxOf)
      [] [] 0 0 0 (inBlock T b).length rfl (by simp)
    simpa [visitedBonds, blockData] using this
  · intro x hx
    obtain ⟨A', ns, B', n, h1, h2, h3, h4⟩ := mem_bondsFrom _ _ _ _ hx
    obtain ⟨A, R, hR, hA, hB⟩ := List.map_eq_append_iff.1 h1
    obtain ⟨t, B, rfl, ht, hB'⟩ := List.map_eq_cons_iff.1 hB
    have htm : t ∈ inBlock T b := by rw [hR]; simp
    rw [← ht, List.getElem?_map, Option.map_eq_some_iff] at h3
    obtain ⟨g, hg, hgj⟩ := h3
    have h0 : 0 < t.nbrs.length := by
      have := (List.getElem?_eq_some_iff.1 hg).1; omega
    obtain ⟨l, h5, _, h6⟩ := bondsOf_split _ A B t hR hnd h0
    refine ⟨t, l, n, (List.mem_filter.1 htm).1, ?_, by simp [hg], ?_, h5, ?_⟩
    · have : x.i = A.length := by rw [h2, ← hA]; simp
      simp [mapsOf, ownOf, hR, this]
    · rw [hg, ← hgj]
      exact readAt_eq_ok.1 (readAt_idxOf _ _ (mem_mapsOf htm (List.mem_of_getElem? hg)))
    · have : (A'.map List.length).sum = (A.map fun t => t.nbrs.length).sum := by
        rw [← hA]; simp [Function.comp_def]
      rw [h4, this, show (mapsOf T b).bonds = bondsOf (inBlock T b) from rfl, h6]
      omega

example : ∃ blk, meshBlock demoMesh 1 = .ok blk ∧ blk.maps.bonds = ⟨[3], [2]⟩ ∧
    visitedBonds 2 blk.data.list = .ok [⟨0, 3, 0⟩, ⟨0, 2, 1⟩] :=
  ⟨⟨⟨[3, 5], [3, 5, 1, 8], ⟨[3], [2]⟩⟩, ⟨[0, 1], [2, 3, 2, 0], [0, 3]⟩⟩, by decide, rfl, by decide⟩

end Verif.Neigh
