import Verif.Search.GlobalLemmas

/-!
# Property C121: the proximity search brings every point exactly its neighbors
-/

noncomputable section

namespace Verif.Search

open Verif Verif.Mech Verif.Filter Verif.Neigh Verif.Redist
open scoped Classical

/-- An import may take the data of a point from any processor that owns it in the balanced decomposition. -/
def Reaches (pick : Nat → Nat → Nat) (balanced ranks : List (List Nat)) : Prop :=
  ∀ (p : Nat) O, ranks[p]? = some O → ∀ g ∈ O, ∃ A, balanced[pick p g]? = some A ∧ g ∈ A

/-- What the caller gets: processor by processor its own points, a list through which every one of them has the
neighbors `nb`, and an overlap map with the own points first and then, increasing and each once, exactly the
neighbors owned elsewhere. -/
def Delivered (nb : Nat → List Nat) (ranks : List (List Nat)) (res : List NbPart) : Prop :=
  res.map NbPart.owned = ranks ∧
  ∀ r ∈ res, Holds nb r ∧ ∃ ghosts, r.overlap = r.owned ++ ghosts ∧ ghosts.Pairwise (· < ·) ∧
    ∀ g, g ∈ ghosts ↔ (∃ o ∈ r.owned, g ∈ nb o) ∧ g ∉ r.owned

/-- The search comes to an end, and what it delivers to the caller is what the processors of the balanced
decomposition found. -/
theorem C121_delivers (Z : Zoltan) (pick1 pick2 : Nat → Nat → Nat) {balanced ranks : List (List Nat)}
    (x : Nat → V3) (h : Nat → ℝ) (a : ℝ) (fs : List BondFilter)
    (hZ : Z.Complete x balanced) (hd : Decomposition balanced)
    (hsame : ∀ g, g ∈ balanced.flatten ↔ g ∈ ranks.flatten)
    (hp1 : Reaches pick1 balanced ranks) (hp2 : Reaches pick2 balanced ranks)
    (hpos : ∀ g ∈ ranks.flatten, 0 < h g) (hadd : ∀ g ∈ ranks.flatten, 0 < h g + a)
    (hself : ExcludesSelf fs) (hf : ∀ f ∈ fs, NonDegenerate f.shape) :
    ∃ nb res, globalProximitySearch Z pick1 pick2 balanced x h a fs ranks = .ok res ∧
      Delivered nb ranks res ∧
      ∀ (r : Nat) (A : List Nat), balanced[r]? = some A →
        ∃ ls, search Z x (fun g => h g + a) balanced (effectiveFilters fs) r = .ok ls ∧
          ls.length = A.length ∧
          ∀ i g : Nat, A[i]? = some g → ls[i]? = some (nb g) := by
  have hr0 : addedRadius h a = fun g => h g + a := funext (addedRadius_eq h a)
  have hh : ∀ g ∈ balanced.flatten, 0 < (fun g => h g + a) g := fun g hg => hadd g ((hsame g).mp hg)
  have hdef : ∀ r, ∃ ls, r < balanced.length →
      search Z x (fun g => h g + a) balanced (effectiveFilters fs) r = .ok ls := by
    intro r
    by_cases hr : r < balanced.length
    · obtain ⟨ls, hls⟩ := search_defined Z x (fun g => h g + a) (effectiveFilters fs) hZ hd hh
        (effective_nondegenerate hf) (r := r) (List.getElem?_eq_getElem hr)
      exact ⟨ls, fun _ => hls⟩
    · exact ⟨[], fun h => absurd h hr⟩
  choose lss hlss using hdef
  obtain ⟨nb, hnb⟩ := lists_as_function balanced hd.nodup lss
  have hone : ∀ (r : Nat) (A : List Nat), balanced[r]? = some A →
      search Z x (fun g => h g + a) balanced (effectiveFilters fs) r = .ok (lss r) ∧
      (lss r).length = A.length := by
    intro r A hr
    have hs := hlss r (List.getElem?_eq_some_iff.mp hr).1
    exact ⟨hs, (search_sound Z x _ (effectiveFilters fs) hZ hd hh (effective_excludes hself) hr hs).1⟩
  let cur : List NbPart := (List.range balanced.length).map fun r =>
    ⟨balanced.getD r [], overlapOf (balanced.getD r []) (lss r),
      encode ((lss r).map (·.map (overlapOf (balanced.getD r []) (lss r)).idxOf))⟩
  have hgetD : ∀ (r : Nat) (A : List Nat), balanced[r]? = some A → balanced.getD r [] = A := by
    intro r A hr
    rw [List.getD_eq_getElem?_getD, hr]
    rfl
  have hcur : allOk (searchPart Z x (addedRadius h a) balanced (effectiveFilters fs))
      (List.range balanced.length) = .ok cur := by
    rw [allOk_iff, List.forall₂_map_right_iff, List.forall₂_same]
    intro r hr
    have hr' := List.getElem?_eq_getElem (List.mem_range.mp hr)
    obtain ⟨h1, h2⟩ := hone r _ hr'
    rw [hr0, searchPart_eq hr' h1 h2, hgetD r _ hr']
  have howned : ∀ c ∈ cur, ∃ (r : Nat) (A : List Nat), balanced[r]? = some A ∧
      c = ⟨A, overlapOf A (lss r), encode ((lss r).map (·.map (overlapOf A (lss r)).idxOf))⟩ := by
    intro c hc
    obtain ⟨r, hr, rfl⟩ := List.mem_map.1 hc
    have hr' := List.getElem?_eq_getElem (List.mem_range.mp hr)
    exact ⟨r, _, hr', by rw [hgetD r _ hr']⟩
  have hpick : ∀ pick : Nat → Nat → Nat, Reaches pick balanced ranks → ValidPick pick cur ranks := by
    intro pick hp p O hO g hg
    obtain ⟨A, hA, hgA⟩ := hp p O hO g hg
    refine ⟨⟨A, overlapOf A (lss (pick p g)),
        encode ((lss (pick p g)).map (·.map (overlapOf A (lss (pick p g))).idxOf))⟩, ?_, ?_⟩
    · rw [List.getElem?_map, List.getElem?_range (List.getElem?_eq_some_iff.mp hA).1, Option.map_some,
        hgetD _ _ hA]
    · exact hgA
  have hneg : ¬ ∃ own ∈ ranks, ∃ g ∈ own, h g ≤ 0 := by
    rintro ⟨own, hown, g, hg, hle⟩
    exact absurd (hpos g (List.mem_flatten.mpr ⟨own, hown, hg⟩)) (not_lt.mpr hle)
  obtain ⟨res, h1, h2, h3⟩ := C14_same_neighbors nb cur ranks pick1 pick2
    (by
      intro c hc
      obtain ⟨r, A, hr, rfl⟩ := howned c hc
      exact (List.nodup_flatten.mp hd.nodup).1 A (List.mem_of_getElem? hr))
    (by
      intro c hc
      obtain ⟨r, A, hr, rfl⟩ := howned c hc
      exact part_holds nb A (lss r) (hone r A hr).2 fun i g l hi hl => hnb r A i g l hr hi hl)
    (hpick pick1 hp1) (hpick pick2 hp2)
  refine ⟨nb, res, ?_, ⟨h2, h3⟩, ?_⟩
  · rw [globalProximitySearch, if_neg hneg, hcur]
    exact h1
  · intro r A hr
    obtain ⟨hs, hl⟩ := hone r A hr
    refine ⟨lss r, hs, hl, ?_⟩
    intro i g hi
    have hb : i < (lss r).length := by rw [hl]; exact (List.getElem?_eq_some_iff.mp hi).1
    rw [List.getElem?_eq_getElem hb, hnb r A i g _ hr hi (List.getElem?_eq_getElem hb)]

/-- C121, what is listed: whatever decomposition Zoltan chooses, every point of the caller gets a list without
repetition of other points, none farther than its radius plus the addition and none behind a filter. -/
theorem C121_sound (Z : Zoltan) (pick1 pick2 : Nat → Nat → Nat) {balanced ranks : List (List Nat)}
    (x : Nat → V3) (h : Nat → ℝ) (a : ℝ) (fs : List BondFilter)
    (hZ : Z.Complete x balanced) (hd : Decomposition balanced)
    (hsame : ∀ g, g ∈ balanced.flatten ↔ g ∈ ranks.flatten)
    (hp1 : Reaches pick1 balanced ranks) (hp2 : Reaches pick2 balanced ranks)
    (hpos : ∀ g ∈ ranks.flatten, 0 < h g) (hadd : ∀ g ∈ ranks.flatten, 0 < h g + a)
    (hself : ExcludesSelf fs) (hf : ∀ f ∈ fs, NonDegenerate f.shape) :
    ∃ nb res, globalProximitySearch Z pick1 pick2 balanced x h a fs ranks = .ok res ∧
      Delivered nb ranks res ∧
      ∀ g ∈ ranks.flatten, (nb g).Nodup ∧ ∀ k ∈ nb g, k ∈ ranks.flatten ∧ k ≠ g ∧
        len (x k - x g) ≤ h g + a ∧ Uncut fs x g k := by
  obtain ⟨nb, res, h1, h2, h3⟩ := C121_delivers Z pick1 pick2 x h a fs hZ hd hsame hp1 hp2 hpos hadd hself hf
  refine ⟨nb, res, h1, h2, ?_⟩
  intro g hg
  obtain ⟨r, A, hr, hgA⟩ := getElem?_of_mem_flatten ((hsame g).mpr hg)
  obtain ⟨i, hi⟩ := List.getElem?_of_mem hgA
  obtain ⟨ls, hs, _, hl⟩ := h3 r A hr
  have h4 := (search_sound Z x _ (effectiveFilters fs) hZ hd (fun g hg => hadd g ((hsame g).mp hg))
    (effective_excludes hself) hr hs).2 i g _ hi (hl i g hi)
  refine ⟨h4.1, ?_⟩
  intro k hk
  obtain ⟨m1, m2, m3, m4⟩ := h4.2 k hk
  exact ⟨(hsame k).mp m1, m2, m3, (effective_uncut fs x g k).mp m4⟩

/-- C121: with one radius for all points and a decomposition whose parts are separated by planes without common
points, every point of the caller gets exactly the other points within the radius plus the addition that
no filter cuts off, each once.  (Partial: with different radii, or points of two processors on one cutting
plane, points can be missing, `varying_radii_miss_neighbor` and `tie_misses_neighbor`.) -/
theorem C121_exact_partial (Z : Zoltan) (pick1 pick2 : Nat → Nat → Nat) {balanced ranks : List (List Nat)}
    (x : Nat → V3) (R : ℝ) (a : ℝ) (fs : List BondFilter)
    (hZ : Z.Complete x balanced) (hd : Decomposition balanced) (hsep : Separated x balanced)
    (hsame : ∀ g, g ∈ balanced.flatten ↔ g ∈ ranks.flatten)
    (hp1 : Reaches pick1 balanced ranks) (hp2 : Reaches pick2 balanced ranks)
    (hpos : 0 < R) (hadd : 0 < R + a)
    (hself : ExcludesSelf fs) (hf : ∀ f ∈ fs, NonDegenerate f.shape) :
    ∃ nb res, globalProximitySearch Z pick1 pick2 balanced x (fun _ => R) a fs ranks = .ok res ∧
      Delivered nb ranks res ∧
      ∀ g ∈ ranks.flatten, (nb g).Nodup ∧ ∀ k, k ∈ nb g ↔ k ∈ ranks.flatten ∧ k ≠ g ∧
        len (x k - x g) ≤ R + a ∧ Uncut fs x g k := by
  obtain ⟨nb, res, h1, h2, h3⟩ := C121_delivers Z pick1 pick2 x (fun _ => R) a fs hZ hd hsame hp1 hp2
    (fun _ _ => hpos) (fun _ _ => hadd) hself hf
  refine ⟨nb, res, h1, h2, ?_⟩
  intro g hg
  obtain ⟨r, A, hr, hgA⟩ := getElem?_of_mem_flatten ((hsame g).mpr hg)
  obtain ⟨i, hi⟩ := List.getElem?_of_mem hgA
  obtain ⟨ls, hs, _, hl⟩ := h3 r A hr
  have h4 := (search_exact_partial Z x (R + a) hadd (effectiveFilters fs) hZ hd
    (effective_excludes hself) hsep hr hs).2 i g _ hi (hl i g hi)
  refine ⟨h4.1, ?_⟩
  intro k
  rw [h4.2 k, hsame k, effective_uncut]

/-- C121, with different radii: a point of the other processor is found when it is within both radii, one within
the own radius when Zoltan put both points on one processor.  This is all that can be promised. -/
theorem C121_mutual_partial (Z : Zoltan) (pick1 pick2 : Nat → Nat → Nat) {balanced ranks : List (List Nat)}
    (x : Nat → V3) (h : Nat → ℝ) (a : ℝ) (fs : List BondFilter)
    (hZ : Z.Complete x balanced) (hd : Decomposition balanced) (hsep : Separated x balanced)
    (hsame : ∀ g, g ∈ balanced.flatten ↔ g ∈ ranks.flatten)
    (hp1 : Reaches pick1 balanced ranks) (hp2 : Reaches pick2 balanced ranks)
    (hpos : ∀ g ∈ ranks.flatten, 0 < h g) (hadd : ∀ g ∈ ranks.flatten, 0 < h g + a)
    (hself : ExcludesSelf fs) (hf : ∀ f ∈ fs, NonDegenerate f.shape) :
    ∃ nb res, globalProximitySearch Z pick1 pick2 balanced x h a fs ranks = .ok res ∧
      Delivered nb ranks res ∧
      ∀ g ∈ ranks.flatten, ∀ k ∈ ranks.flatten, k ≠ g → len (x k - x g) ≤ h g + a → Uncut fs x g k →
        ((∃ A ∈ balanced, g ∈ A ∧ k ∈ A) ∨ len (x k - x g) ≤ h k + a) → k ∈ nb g := by
  obtain ⟨nb, res, h1, h2, h3⟩ := C121_delivers Z pick1 pick2 x h a fs hZ hd hsame hp1 hp2 hpos hadd hself hf
  refine ⟨nb, res, h1, h2, ?_⟩
  intro g hg k hk hne hle hun hor
  obtain ⟨r, A, hr, hgA⟩ := getElem?_of_mem_flatten ((hsame g).mpr hg)
  obtain ⟨i, hi⟩ := List.getElem?_of_mem hgA
  obtain ⟨ls, hs, _, hl⟩ := h3 r A hr
  refine search_complete_partial Z x _ (effectiveFilters fs) hZ hd (fun g hg => hadd g ((hsame g).mp hg))
    (effective_excludes hself) hsep hr hs hi (hl i g hi) ((hsame k).mpr hk) hne hle
    ((effective_uncut fs x g k).mpr hun) ?_
  rcases hor with ⟨B, hB, hgB, hkB⟩ | hor
  · left
    obtain ⟨s, hsB⟩ := List.getElem?_of_mem hB
    have hrs := same_rank hd.nodup hr hsB hgA hgB
    subst hrs
    rw [hr] at hsB
    injection hsB with hAB
    rw [hAB]
    exact hkB
  · exact Or.inr hor

/-- C121, refusal: a point whose radius is not positive ends the program, on every decomposition. -/
theorem C121_refused (Z : Zoltan) (pick1 pick2 : Nat → Nat → Nat) (balanced ranks : List (List Nat))
    (x : Nat → V3) (h : Nat → ℝ) (a : ℝ) (fs : List BondFilter) {g : Nat} (hg : g ∈ ranks.flatten)
    (hle : h g ≤ 0) :
    globalProximitySearch Z pick1 pick2 balanced x h a fs ranks = .fail .terminate := by
  obtain ⟨own, ho, hgo⟩ := List.mem_flatten.mp hg
  rw [globalProximitySearch, if_pos ⟨own, ho, g, hgo, hle⟩]

/-! ### A concrete case -/

/-- Four points on a line; the caller has them dealt out alternately, Zoltan puts the left and the right ones
together. -/
theorem line_reaches : Reaches (fun _ g => if g ≤ 1 then 0 else 1) [[0, 1], [2, 3]] [[0, 2], [3, 1]] := by
  intro p O hO g hg
  have hO' : O ∈ [[0, 2], [3, 1]] := List.mem_of_getElem? hO
  have : g = 0 ∨ g = 1 ∨ g = 2 ∨ g = 3 := by
    simp only [List.mem_cons, List.not_mem_nil, or_false] at hO'
    rcases hO' with rfl | rfl <;> simp only [List.mem_cons, List.not_mem_nil, or_false] at hg <;> omega
  rcases this with rfl | rfl | rfl | rfl
  · exact ⟨[0, 1], rfl, by decide⟩
  · exact ⟨[0, 1], rfl, by decide⟩
  · exact ⟨[2, 3], rfl, by decide⟩
  · exact ⟨[2, 3], rfl, by decide⟩

theorem line_same (g : Nat) : g ∈ [[0, 1], [2, 3]].flatten ↔ g ∈ [[0, 2], [3, 1]].flatten := by
  simp only [List.flatten_cons, List.flatten_nil, List.append_nil, List.cons_append, List.nil_append,
    List.mem_cons, List.not_mem_nil, or_false]
  omega

/-- With radius `3/4` and addition `1/4`, point 1 of the caller's second processor gets point 2 of its first. -/
example : ∃ nb res, globalProximitySearch twoCells (fun _ g => if g ≤ 1 then 0 else 1)
      (fun _ g => if g ≤ 1 then 0 else 1) [[0, 1], [2, 3]] linePoints (fun _ => 3/4) (1/4) []
      [[0, 2], [3, 1]] = .ok res ∧ Delivered nb [[0, 2], [3, 1]] res ∧ 2 ∈ nb 1 ∧ 3 ∉ nb 1 := by
  obtain ⟨nb, res, h1, h2, h3⟩ := C121_exact_partial twoCells _ _ linePoints (3/4) (1/4) [] line_complete
    line_decomposition line_separated line_same line_reaches line_reaches (by norm_num) (by norm_num)
    (Or.inl rfl) (by simp)
  refine ⟨nb, res, h1, h2, ?_, ?_⟩
  · refine ((h3 1 (by decide)).2 2).mpr ⟨by decide, by decide, ?_, fun f hf => by cases hf⟩
    simp [linePoints, len]
    norm_num
  · intro hm
    have := (((h3 1 (by decide)).2 3).mp hm).2.2.1
    have he : len (linePoints 3 - linePoints 1) = 3 / 2 := by
      simp [linePoints, len]
      rw [show ((2 : ℝ) - 2⁻¹) = 3 / 2 by norm_num]
      exact Real.sqrt_eq_iff_mul_self_eq_of_pos (by norm_num) |>.mpr (by norm_num)
    rw [he] at this
    norm_num at this

example : globalProximitySearch twoCells (fun _ _ => 0) (fun _ _ => 0) [[0, 1], [2, 3]] linePoints
    (fun g => if g = 3 then 0 else 1) 1 [] [[0, 2], [3, 1]] = .fail .terminate :=
  C121_refused _ _ _ _ _ _ _ _ _ (g := 3) (by decide) (by simp)

end Verif.Search
