import Verif.Mesh.FilterLemmas

/-!
# Property C125: omitting the bonds between blocks
-/

namespace Verif.Mesh

open Verif Verif.Neigh

/-- C125: with "All" and block ids from 1 to the number of blocks, exactly the bonds between points of the same
block are kept, in their order, and the pointers fit to the new list. -/
theorem C125_all_partial (n : Nat) (blk : Nat → Int) (owned ghosts : List Nat) (nbs : List (List Nat))
    (hn : owned.Nodup) (hl : nbs.length = owned.length)
    (hlt : ∀ ns ∈ nbs, ∀ j ∈ ns, j < (owned ++ ghosts).length)
    (hblk : ∀ g ∈ owned ++ ghosts, 1 ≤ blk g ∧ blk g ≤ n) :
    ∃ kept, exodusNeighborhood "All" n blk owned (owned ++ ghosts) (encode nbs) =
        .ok ⟨List.range owned.length, encode kept, offsets kept⟩ ∧ kept.length = owned.length ∧
      ∀ (i g : Nat) (ns : List Nat), owned[i]? = some g → nbs[i]? = some ns →
        kept[i]? = some (ns.filter fun j => blk ((owned ++ ghosts).getD j 0) = blk g) := by
  have hids : ∀ c ∈ (owned ++ ghosts).map blk, 1 ≤ c ∧ c ≤ (n : Int) := by
    intro c hc
    obtain ⟨g, hg, rfl⟩ := List.mem_map.1 hc
    exact hblk g hg
  have h1 := pointers_eq nbs [] 0 rfl
  have h2 := filterLoop_eq hids nbs [] 0 0 0 rfl
    (by rw [Nat.zero_add, List.length_map, List.length_append]; omega)
    (by rw [List.length_map]; exact hlt)
  rw [List.nil_append] at h1 h2
  have h3 : owned.map owned.idxOf = List.range owned.length := by
    apply List.ext_getElem
    · simp
    · intro i hi _
      rw [List.length_map] at hi
      rw [List.getElem_map, List.getElem_range, hn.idxOf_getElem i hi]
  refine ⟨sameBlocks ((owned ++ ghosts).map blk) 0 nbs, ?_, ?_, ?_⟩
  · rw [exodusNeighborhood, ← hl, h1]
    simp only [filterBonds]
    rw [if_neg (by decide), if_pos trivial, List.length_map, ← hl, h2]
    simp only
    rw [h3, hl, offsets_eq]
  · rw [sameBlocks_length, hl]
  · intro i g ns hi hns
    rw [sameBlocks_get, hns, Option.map_some, Nat.zero_add]
    congr 1
    unfold sameBlock
    apply List.filter_congr
    intro j hj
    have hj' := hlt ns (List.mem_of_getElem? hns) j hj
    have hi' : (owned ++ ghosts)[i]? = some g := by
      rw [List.getElem?_append_left (List.getElem?_eq_some_iff.mp hi).1, hi]
    rw [decide_eq_decide, List.getElem?_map, List.getElem?_map, hi', List.getD_eq_getElem?_getD,
      List.getElem?_eq_getElem hj']
    simp

/-- C125: with "None" the neighborhoods are those that were found. -/
theorem C125_none (n : Nat) (blk : Nat → Int) (owned overlap : List Nat) (nbs : List (List Nat))
    (hn : owned.Nodup) (hl : nbs.length = owned.length) :
    exodusNeighborhood "None" n blk owned overlap (encode nbs) =
      .ok ⟨List.range owned.length, encode nbs, offsets nbs⟩ := by
  have h1 := pointers_eq nbs [] 0 rfl
  rw [List.nil_append] at h1
  have h3 : owned.map owned.idxOf = List.range owned.length := by
    apply List.ext_getElem
    · simp
    · intro i hi _
      rw [List.length_map] at hi
      rw [List.getElem_map, List.getElem_range, hn.idxOf_getElem i hi]
  rw [exodusNeighborhood, ← hl, h1]
  simp only [filterBonds]
  rw [if_pos trivial, h3, hl, offsets_eq]

/-- C125: any other value is refused. -/
theorem C125_refused (command : String) (n : Nat) (blk : Nat → Int) (overlap : List Nat) (d : NeighborhoodData)
    (h1 : command ≠ "None") (h2 : command ≠ "All") :
    filterBonds command n blk overlap d = .fail .runtimeError := by
  rw [filterBonds, if_neg h1, if_neg h2]

/-- C125 is false of the code when the block ids are not the numbers from 1 on: a point with a neighbor and with
a block id that is greater than the number of blocks, or not positive, leads to an access outside the matrix. -/
theorem C125_undefined (n : Nat) (blk : Nat → Int) (owned ghosts : List Nat) (nbs : List (List Nat))
    (hl : nbs.length = owned.length) {i g : Nat} {ns : List Nat} (hi : owned[i]? = some g)
    (hns : nbs[i]? = some ns) (hne : ns ≠ []) (hb : ¬ (1 ≤ blk g ∧ blk g ≤ n)) :
    exodusNeighborhood "All" n blk owned (owned ++ ghosts) (encode nbs) = .ub := by
  have h1 := pointers_eq nbs [] 0 rfl
  rw [List.nil_append] at h1
  have h2 := filterLoop_ub (n := n) (ids := (owned ++ ghosts).map blk) nbs [] 0 0 0 rfl i (blk g) ns hns hne
    (by
      rw [Nat.zero_add, List.getElem?_map, List.getElem?_append_left (List.getElem?_eq_some_iff.mp hi).1, hi]
      rfl) hb
  rw [List.nil_append] at h2
  rw [exodusNeighborhood, ← hl, h1]
  simp only [filterBonds]
  rw [if_neg (by decide), if_pos trivial, List.length_map, ← hl, h2]

/-- A mesh with the two blocks 1 and 3: the option leads to undefined behavior.  With the blocks called 1 and 2
the same mesh is treated correctly. -/
theorem C125_broken : ∃ (owned : List Nat) (blk blk' : Nat → Int) (nbs : List (List Nat)),
    (owned.map blk).dedup.length = 2 ∧ (owned.map blk').dedup.length = 2 ∧
    (∀ g ∈ owned, ∀ k ∈ owned, blk g = blk k ↔ blk' g = blk' k) ∧
    exodusNeighborhood "All" 2 blk owned owned (encode nbs) = .ub ∧
    exodusNeighborhood "All" 2 blk' owned owned (encode nbs) = .ok ⟨[0, 1, 2], [0, 1, 2, 1, 1], [0, 1, 3]⟩ :=
  ⟨[7, 4, 9], fun g => if g = 7 then 1 else 3, fun g => if g = 7 then 1 else 2, [[1, 2], [0, 2], [1]],
    by decide, by decide, by decide, by decide, by decide⟩

/-- C125, text files: the lists of a text mesh are filtered in the same way; here the neighbors `nbs` are given by
global id as the search found them, and a bond is kept if and only if both points are in the same block. -/
theorem C125_text_partial (n : Nat) (blk : Nat → Int) (gids : List Nat) (nbs : List (List Nat))
    (hl : nbs.length = gids.length)
    (hblk : ∀ g, (g ∈ gids ∨ ∃ ns ∈ nbs, g ∈ ns) → 1 ≤ blk g ∧ blk g ≤ n) :
    ∃ d kept, discretize (gridOf gids nbs) = .ok d ∧
      filterBonds "All" n blk d.overlap d.data = .ok ⟨d.data.ownedIDs, encode kept, offsets kept⟩ ∧
      kept.length = gids.length ∧
      ∀ (i g : Nat) (ns lids : List Nat), gids[i]? = some g → nbs[i]? = some ns → kept[i]? = some lids →
        lids.map (fun l => d.overlap[l]?) = (ns.filter fun k => blk k = blk g).map some := by
  have hmem : ∀ g ∈ overlapOf gids nbs, g ∈ gids ∨ ∃ ns ∈ nbs, g ∈ ns := by
    intro g hg
    unfold overlapOf sharedOf at hg
    rw [List.mem_append, mem_sortUnique, List.mem_flatMap] at hg
    rcases hg with hg | ⟨ns, hns, hg⟩
    · exact Or.inl hg
    · exact Or.inr ⟨ns, hns, (List.mem_filter.1 hg).1⟩
  have hids : ∀ c ∈ (overlapOf gids nbs).map blk, 1 ≤ c ∧ c ≤ (n : Int) := by
    intro c hc
    obtain ⟨g, hg, rfl⟩ := List.mem_map.1 hc
    exact hblk g (hmem g hg)
  have hlt : ∀ ms ∈ nbs.map (·.map (overlapOf gids nbs).idxOf), ∀ j ∈ ms,
      j < ((overlapOf gids nbs).map blk).length := by
    intro ms hms j hj
    obtain ⟨ns, hns, rfl⟩ := List.mem_map.1 hms
    obtain ⟨k, hk, rfl⟩ := List.mem_map.1 hj
    rw [List.length_map]
    exact List.idxOf_lt_length_of_mem (mem_overlapOf hns hk)
  have h2 := filterLoop_eq hids (nbs.map (·.map (overlapOf gids nbs).idxOf)) [] 0 0 0 rfl
    (by rw [Nat.zero_add, List.length_map, List.length_map, hl, overlapOf, List.length_append]; omega) hlt
  rw [List.nil_append] at h2
  refine ⟨discOf gids nbs, sameBlocks ((overlapOf gids nbs).map blk) 0
    (nbs.map (·.map (overlapOf gids nbs).idxOf)), discretize_eq gids nbs hl, ?_, ?_, ?_⟩
  · rw [filterBonds, if_neg (by decide), if_pos rfl]
    simp only [discOf]
    rw [List.length_map, show gids.length = (nbs.map (·.map (overlapOf gids nbs).idxOf)).length by
      rw [List.length_map, hl], h2]
    simp only
    rw [offsets_eq]
  · rw [sameBlocks_length, List.length_map, hl]
  · intro i g ns lids hi hns hlids
    rw [sameBlocks_get, List.getElem?_map, hns, Option.map_some, Option.map_some, Nat.zero_add] at hlids
    injection hlids with hlids
    subst hlids
    have hi' : (overlapOf gids nbs)[i]? = some g := by
      rw [overlapOf, List.getElem?_append_left (List.getElem?_eq_some_iff.mp hi).1, hi]
    unfold sameBlock
    rw [List.filter_map, List.map_map]
    have hf : ns.filter ((fun j => decide (((overlapOf gids nbs).map blk)[j]? =
        ((overlapOf gids nbs).map blk)[i]?)) ∘ (overlapOf gids nbs).idxOf) =
        ns.filter fun k => blk k = blk g := by
      apply List.filter_congr
      intro k hk
      have hk' := readAt_eq_ok.1 (readAt_idxOf _ _ (mem_overlapOf (gids := gids) (List.mem_of_getElem? hns) hk))
      simp only [Function.comp_apply, List.getElem?_map, hi', hk', Option.map_some, Option.some.injEq]
    rw [hf]
    apply List.map_congr_left
    intro k hk
    exact readAt_eq_ok.1 (readAt_idxOf _ _ (mem_overlapOf (List.mem_of_getElem? hns) (List.mem_filter.1 hk).1))

example : ∃ d, discretize (gridOf [5, 3] [[3, 8], [5]]) = .ok d ∧
    filterBonds "All" 2 (fun g => if g = 8 then 2 else 1) d.overlap d.data =
      .ok ⟨d.data.ownedIDs, encode [[1], [0]], offsets [[1], [0]]⟩ :=
  ⟨_, rfl, by decide⟩

/-- Two blocks, one ghost: the bond of point 5 to the ghost 8 of the other block is dropped. -/
example : exodusNeighborhood "All" 2 (fun g => if g = 8 then 2 else 1) [5, 3] [5, 3, 8]
      (encode [[1, 2], [0]]) = .ok ⟨[0, 1], [1, 1, 1, 0], [0, 2]⟩ := by decide

example : ∀ g ∈ [5, 3] ++ [8], 1 ≤ (fun g : Nat => if g = 8 then (2 : Int) else 1) g ∧
    (fun g : Nat => if g = 8 then (2 : Int) else 1) g ≤ (2 : Nat) := by decide

end Verif.Mesh
