import Verif.Search.Lemmas

/-!
# C15: the neighbor search finds exactly the points within the radius, on any number of processors

The full claim is "for every search radius per point and every decomposition, the neighbors found for a
point are exactly the other points within its radius that no filter excludes".  It is false of the code
for radii that differ from point to point (`varying_radii_miss_neighbor`) and, at distance exactly equal to
the radius, for decompositions in which two processors own points on the same cutting plane
(`tie_misses_neighbor`).  What is proved is marked `_partial` accordingly.
-/

noncomputable section

namespace Verif.Search

open Verif Verif.Mech Verif.Filter
open scoped Classical

/-- The points considered, and what is found among them. -/
theorem found_iff (Z : Zoltan) (x : Nat → V3) (h : Nat → ℝ) {ranks : List (List Nat)} (fs : List BondFilter)
    (hZ : Z.Complete x ranks) (hd : Decomposition ranks) (hh : ∀ g ∈ ranks.flatten, 0 < h g)
    (hself : ExcludesSelf fs)
    {r : Nat} {A : List Nat} (hr : ranks[r]? = some A) {ls : List (List Nat)}
    (hs : search Z x h ranks fs r = .ok ls) :
    ∃ ids, overlapIds Z x h ranks r = .ok ids ∧ ls.length = A.length ∧
      ∀ (i g : Nat) (l : List Nat), A[i]? = some g → ls[i]? = some l →
        l.Nodup ∧ ∀ k, k ∈ l ↔ k ∈ ids ∧ len (x k - x g) ≤ h g ∧ k ≠ g ∧ Uncut fs x g k := by
  replace hself := effective_self hself
  simp only [← effective_uncut fs]
  obtain ⟨more, h1, h2, h3, _⟩ := overlapIds_ok Z x h hZ hd hr
  have hA : ranks.getD r [] = A := by rw [List.getD_eq_getElem?_getD, hr]; rfl
  simp only [search, h1, hA] at hs
  obtain ⟨hlen, hall⟩ := buildAll_ok hs
  refine ⟨A ++ more, h1, hlen, ?_⟩
  intro i g l hg hl
  obtain ⟨ns, hns, rfl⟩ := hall i g l hg hl
  rw [Nat.zero_add] at hns
  have hgf : g ∈ ranks.flatten := List.mem_flatten.mpr ⟨A, List.mem_of_getElem? hr, List.mem_of_getElem? hg⟩
  obtain ⟨hnd, hmem⟩ := buildOne_ok hZ (hh g hgf).le hns
  have hid : ∀ u, u ∈ ns → ∃ k, (A ++ more)[u]? = some k ∧ (A ++ more).getD u 0 = k ∧
      len (x k - x g) ≤ h g ∧ ¬ ∃ f ∈ effectiveFilters fs, (i = u ∧ f.includeSelf = false) ∨
        f.shape.cuts (x g) (x k) = .ok true := by
    intro u hu
    obtain ⟨X, hX, hrest⟩ := (hmem u).mp hu
    rw [List.getElem?_map] at hX
    cases hk : (A ++ more)[u]? with
    | none => rw [hk] at hX; cases hX
    | some k =>
      rw [hk] at hX
      injection hX with hX
      subst hX
      exact ⟨k, rfl, by rw [List.getD_eq_getElem?_getD, hk]; rfl, hrest⟩
  constructor
  · apply List.Nodup.map_on _ hnd
    intro u hu w hw huw
    obtain ⟨k, hk, hk', _⟩ := hid u hu
    obtain ⟨k2, hk2, hk2', _⟩ := hid w hw
    rw [hk', hk2'] at huw
    subst huw
    obtain ⟨a1, a2⟩ := List.getElem?_eq_some_iff.mp hk
    obtain ⟨b1, b2⟩ := List.getElem?_eq_some_iff.mp hk2
    exact (h2.getElem_inj_iff).mp (a2.trans b2.symm)
  · intro k
    rw [List.mem_map]
    have hgi : (A ++ more)[i]? = some g := by
      rw [List.getElem?_append_left (List.getElem?_eq_some_iff.mp hg).1]; exact hg
    constructor
    · rintro ⟨u, hu, rfl⟩
      obtain ⟨k, hk, hk', hle, hno⟩ := hid u hu
      rw [hk']
      refine ⟨List.mem_of_getElem? hk, hle, ?_, ?_⟩
      · rintro rfl
        obtain ⟨a1, a2⟩ := List.getElem?_eq_some_iff.mp hk
        obtain ⟨b1, b2⟩ := List.getElem?_eq_some_iff.mp hgi
        have hui : u = i := (h2.getElem_inj_iff).mp (a2.trans b2.symm)
        obtain ⟨f, hf, hf'⟩ := hself
        exact hno ⟨f, hf, Or.inl ⟨hui.symm, hf'⟩⟩
      · intro f hf hc
        exact hno ⟨f, hf, Or.inr hc⟩
    · rintro ⟨hk, hle, hne, hun⟩
      obtain ⟨u, hu⟩ := List.getElem?_of_mem hk
      refine ⟨u, (hmem u).mpr ⟨x k, by rw [List.getElem?_map, hu]; rfl, hle, ?_⟩,
        by rw [List.getD_eq_getElem?_getD, hu]; rfl⟩
      rintro ⟨f, hf, ⟨hiu, _⟩ | hc⟩
      · subst hiu
        rw [hgi] at hu
        injection hu with hu
        exact hne hu.symm
      · exact hun f hf hc

/-- C15, soundness (any radii, any decomposition): every neighbor listed for `g` is an existing point other
than `g`, listed once, within the search radius of `g` and not cut off by a filter. -/
theorem search_sound (Z : Zoltan) (x : Nat → V3) (h : Nat → ℝ) {ranks : List (List Nat)} (fs : List BondFilter)
    (hZ : Z.Complete x ranks) (hd : Decomposition ranks) (hh : ∀ g ∈ ranks.flatten, 0 < h g)
    (hself : ExcludesSelf fs)
    {r : Nat} {A : List Nat} (hr : ranks[r]? = some A) {ls : List (List Nat)}
    (hs : search Z x h ranks fs r = .ok ls) :
    ls.length = A.length ∧
    ∀ (i g : Nat) (l : List Nat), A[i]? = some g → ls[i]? = some l →
      l.Nodup ∧ ∀ k ∈ l, k ∈ ranks.flatten ∧ k ≠ g ∧ len (x k - x g) ≤ h g ∧
        Uncut fs x g k := by
  obtain ⟨ids, h1, h2, h3⟩ := found_iff Z x h fs hZ hd hh hself hr hs
  obtain ⟨more, h1', _, hsub, _⟩ := overlapIds_ok Z x h hZ hd hr
  rw [h1] at h1'
  injection h1' with h1'
  subst h1'
  refine ⟨h2, ?_⟩
  intro i g l hg hl
  obtain ⟨h4, h5⟩ := h3 i g l hg hl
  refine ⟨h4, ?_⟩
  intro k hk
  obtain ⟨h6, h7, h8, h9⟩ := (h5 k).mp hk
  exact ⟨hsub k h6, h8, h7, h9⟩

/-- A point of another processor that is within its own radius of an own point is among the overlap points. -/
theorem overlap_complete (Z : Zoltan) (x : Nat → V3) (h : Nat → ℝ) {ranks : List (List Nat)}
    (hZ : Z.Complete x ranks) (hd : Decomposition ranks)
    {r s : Nat} {A B : List Nat} (hr : ranks[r]? = some A) (hs : ranks[s]? = some B) (hne : s ≠ r)
    {ids : List Nat} (hids : overlapIds Z x h ranks r = .ok ids) {g k : Nat} (hg : g ∈ A) (hk : k ∈ B)
    (hd1 : (Separated x ranks ∧ len (x k - x g) ≤ h k) ∨ (WeaklySeparated x ranks ∧ len (x k - x g) < h k)) :
    k ∈ ids := by
  obtain ⟨more, h1', _, _, hmem⟩ := overlapIds_ok Z x h hZ hd hr
  rw [hids] at h1'
  injection h1' with h1'
  subst h1'
  apply List.mem_append_right
  have hle : len (x k - x g) ≤ h k := by
    rcases hd1 with h' | h'
    · exact h'.2
    · exact h'.2.le
  have hmax : h k ≤ maxHorizon (B.map h) := le_maxHorizon (List.mem_map_of_mem hk)
  refine ((hmem s B k hne hs).mpr ⟨hk, ?_, ?_⟩).1
  · exact hZ.box _ _ r A g hr hg (inBox_of_len (by rw [len_sub_comm]; exact hle))
  · -- the frame
    have hex : ∀ c, (∃ j ∈ B, ∀ j' ∈ B, x j c ≤ x j' c) ∧ (∃ j ∈ B, ∀ j' ∈ B, x j' c ≤ x j c) := by
      intro c
      have hBne : B.toFinset.Nonempty := ⟨k, by simpa using hk⟩
      obtain ⟨j, hj, hj'⟩ := B.toFinset.exists_min_image (fun j => x j c) hBne
      obtain ⟨m, hm, hm'⟩ := B.toFinset.exists_max_image (fun j => x j c) hBne
      simp only [List.mem_toFinset] at hj hj' hm hm'
      exact ⟨⟨j, hj, hj'⟩, ⟨m, hm, hm'⟩⟩
    have hc : ∀ c, x g c - len (x k - x g) ≤ x k c ∧ x k c ≤ x g c + len (x k - x g) := by
      intro c
      have := abs_coord_le_len (x k - x g) c
      rw [abs_le] at this
      simp only [Pi.sub_apply] at this
      constructor <;> linarith
    rcases hd1 with ⟨hsep, _⟩ | ⟨hsep, hlt⟩
    · obtain ⟨c, hc1⟩ := hsep r s hne.symm A B hr hs
      obtain ⟨⟨j, hj, hj'⟩, ⟨m, hm, hm'⟩⟩ := hex c
      refine ⟨c, ?_⟩
      rcases hc1 with hc1 | hc1
      · left
        have := hc1 g hg j hj
        exact ⟨j, hj, hj', by linarith [(hc c).2]⟩
      · right
        have := hc1 g hg m hm
        exact ⟨m, hm, hm', by linarith [(hc c).1]⟩
    · obtain ⟨c, hc1⟩ := hsep r s hne.symm A B hr hs
      obtain ⟨⟨j, hj, hj'⟩, ⟨m, hm, hm'⟩⟩ := hex c
      refine ⟨c, ?_⟩
      rcases hc1 with hc1 | hc1
      · left
        have := hc1 g hg j hj
        exact ⟨j, hj, hj', by linarith [(hc c).2]⟩
      · right
        have := hc1 g hg m hm
        exact ⟨m, hm, hm', by linarith [(hc c).1]⟩

/-- C15, completeness for differing radii, partial: every other point `k` within the radius of `g` is found if
it is owned by the same processor or `g` is also within the radius of `k`.  Missing: neighbors on other
processors whose own radius is smaller than their distance; they can be missed
(`varying_radii_miss_neighbor`). -/
theorem search_complete_partial (Z : Zoltan) (x : Nat → V3) (h : Nat → ℝ) {ranks : List (List Nat)}
    (fs : List BondFilter) (hZ : Z.Complete x ranks) (hd : Decomposition ranks)
    (hh : ∀ g ∈ ranks.flatten, 0 < h g) (hself : ExcludesSelf fs)
    (hsep : Separated x ranks)
    {r : Nat} {A : List Nat} (hr : ranks[r]? = some A) {ls : List (List Nat)}
    (hs : search Z x h ranks fs r = .ok ls)
    {i g : Nat} {l : List Nat} (hg : A[i]? = some g) (hl : ls[i]? = some l)
    {k : Nat} (hk : k ∈ ranks.flatten) (hne : k ≠ g) (hle : len (x k - x g) ≤ h g)
    (hun : Uncut fs x g k) (hrec : k ∈ A ∨ len (x k - x g) ≤ h k) : k ∈ l := by
  obtain ⟨ids, h1, h2, h3⟩ := found_iff Z x h fs hZ hd hh hself hr hs
  refine ((h3 i g l hg hl).2 k).mpr ⟨?_, hle, hne, hun⟩
  obtain ⟨s, B, hB, hkB⟩ := getElem?_of_mem_flatten hk
  by_cases hsr : s = r
  · subst hsr
    rw [hr] at hB
    injection hB with hB
    subst hB
    obtain ⟨more, h1', _⟩ := overlapIds_ok Z x h hZ hd hr
    rw [h1] at h1'
    injection h1' with h1'
    subst h1'
    exact List.mem_append_left _ hkB
  · rcases hrec with hrec | hrec
    · exact absurd (same_rank hd.nodup hB hr hkB hrec) hsr
    · exact overlap_complete Z x h hZ hd hr hB hsr h1 (List.mem_of_getElem? hg) hkB (Or.inl ⟨hsep, hrec⟩)

/-- C15, one radius for all points, partial (the full claim allows a radius per point): on any decomposition
into processors separated by coordinate planes, the neighbors found for `g` are exactly the other points within
the radius that no filter excludes, each once. -/
theorem search_exact_partial (Z : Zoltan) (x : Nat → V3) (R : ℝ) (hR : 0 < R) {ranks : List (List Nat)}
    (fs : List BondFilter) (hZ : Z.Complete x ranks) (hd : Decomposition ranks)
    (hself : ExcludesSelf fs)
    (hsep : Separated x ranks)
    {r : Nat} {A : List Nat} (hr : ranks[r]? = some A) {ls : List (List Nat)}
    (hs : search Z x (fun _ => R) ranks fs r = .ok ls) :
    ls.length = A.length ∧
    ∀ (i g : Nat) (l : List Nat), A[i]? = some g → ls[i]? = some l →
      l.Nodup ∧ ∀ k, k ∈ l ↔ k ∈ ranks.flatten ∧ k ≠ g ∧ len (x k - x g) ≤ R ∧
        Uncut fs x g k := by
  obtain ⟨h1, h2⟩ := search_sound Z x (fun _ => R) fs hZ hd (fun _ _ => hR) hself hr hs
  refine ⟨h1, ?_⟩
  intro i g l hg hl
  obtain ⟨h3, h4⟩ := h2 i g l hg hl
  refine ⟨h3, fun k => ⟨h4 k, ?_⟩⟩
  rintro ⟨hk, hne, hle, hun⟩
  exact search_complete_partial Z x (fun _ => R) fs hZ hd (fun _ _ => hR) hself hsep hr hs hg hl hk hne hle hun
    (Or.inr hle)

/-- C15, points on cutting planes, partial: if processors may share a cutting plane, the points strictly within
the radius are found, and nothing beyond the radius is.  Missing: points at distance exactly equal to the
radius, which can be missed (`tie_misses_neighbor`). -/
theorem search_ties_partial (Z : Zoltan) (x : Nat → V3) (R : ℝ) (hR : 0 < R) {ranks : List (List Nat)}
    (fs : List BondFilter) (hZ : Z.Complete x ranks) (hd : Decomposition ranks)
    (hself : ExcludesSelf fs)
    (hsep : WeaklySeparated x ranks)
    {r : Nat} {A : List Nat} (hr : ranks[r]? = some A) {ls : List (List Nat)}
    (hs : search Z x (fun _ => R) ranks fs r = .ok ls)
    {i g : Nat} {l : List Nat} (hg : A[i]? = some g) (hl : ls[i]? = some l) {k : Nat}
    (hk : k ∈ ranks.flatten) (hne : k ≠ g) (hun : Uncut fs x g k) :
    (len (x k - x g) < R → k ∈ l) ∧ (R < len (x k - x g) → k ∉ l) := by
  obtain ⟨ids, h1, h2, h3⟩ := found_iff Z x (fun _ => R) fs hZ hd (fun _ _ => hR) hself hr hs
  obtain ⟨_, h4⟩ := h3 i g l hg hl
  constructor
  · intro hlt
    refine (h4 k).mpr ⟨?_, hlt.le, hne, hun⟩
    obtain ⟨s, B, hB, hkB⟩ := getElem?_of_mem_flatten hk
    by_cases hsr : s = r
    · subst hsr
      rw [hr] at hB
      injection hB with hB
      subst hB
      obtain ⟨more, h1', _⟩ := overlapIds_ok Z x (fun _ => R) hZ hd hr
      rw [h1] at h1'
      injection h1' with h1'
      subst h1'
      exact List.mem_append_left _ hkB
    · exact overlap_complete Z x _ hZ hd hr hB hsr h1 (List.mem_of_getElem? hg) hkB (Or.inr ⟨hsep, hlt⟩)
  · intro hgt hkl
    exact absurd ((h4 k).mp hkl).2.1 (not_le.mpr hgt)

/-- C15, distribution independence for one radius: two decompositions of the same points, with whatever Zoltan
answers, list the same neighbors for a point. -/
theorem search_independent_partial (Z Z' : Zoltan) (x : Nat → V3) (R : ℝ) (hR : 0 < R)
    {ranks ranks' : List (List Nat)} (fs : List BondFilter)
    (hZ : Z.Complete x ranks) (hZ' : Z'.Complete x ranks') (hd : Decomposition ranks) (hd' : Decomposition ranks')
    (hself : ExcludesSelf fs)
    (hsep : Separated x ranks) (hsep' : Separated x ranks')
    (hsame : ∀ k, k ∈ ranks.flatten ↔ k ∈ ranks'.flatten)
    {r r' : Nat} {A A' : List Nat} (hr : ranks[r]? = some A) (hr' : ranks'[r']? = some A')
    {ls ls' : List (List Nat)}
    (hs : search Z x (fun _ => R) ranks fs r = .ok ls) (hs' : search Z' x (fun _ => R) ranks' fs r' = .ok ls')
    {i i' g : Nat} {l l' : List Nat} (hg : A[i]? = some g) (hl : ls[i]? = some l)
    (hg' : A'[i']? = some g) (hl' : ls'[i']? = some l') : l.Perm l' := by
  obtain ⟨n1, m1⟩ := (search_exact_partial Z x R hR fs hZ hd hself hsep hr hs).2 i g l hg hl
  obtain ⟨n2, m2⟩ := (search_exact_partial Z' x R hR fs hZ' hd' hself hsep' hr' hs').2 i' g l' hg' hl'
  rw [List.perm_ext_iff_of_nodup n1 n2]
  intro k
  rw [m1, m2, hsame]

/-- C15, symmetric neighborhoods for one radius: `k` is a neighbor of `g` exactly if `g` is one of `k`, also if
they are owned by different processors. -/
theorem search_symmetric_partial (Z : Zoltan) (x : Nat → V3) (R : ℝ) (hR : 0 < R) {ranks : List (List Nat)}
    (fs : List BondFilter) (hZ : Z.Complete x ranks) (hd : Decomposition ranks)
    (hself : ExcludesSelf fs)
    (hsep : Separated x ranks)
    {r s : Nat} {A B : List Nat} (hr : ranks[r]? = some A) (hsB : ranks[s]? = some B) {ls ms : List (List Nat)}
    (h1 : search Z x (fun _ => R) ranks fs r = .ok ls) (h2 : search Z x (fun _ => R) ranks fs s = .ok ms)
    {i g j k : Nat} {l m : List Nat} (hg : A[i]? = some g) (hl : ls[i]? = some l)
    (hk : B[j]? = some k) (hm : ms[j]? = some m) : k ∈ l ↔ g ∈ m := by
  obtain ⟨_, m1⟩ := (search_exact_partial Z x R hR fs hZ hd hself hsep hr h1).2 i g l hg hl
  obtain ⟨_, m2⟩ := (search_exact_partial Z x R hR fs hZ hd hself hsep hsB h2).2 j k m hk hm
  rw [m1, m2, len_sub_comm]
  have hgf : g ∈ ranks.flatten := List.mem_flatten.mpr ⟨A, List.mem_of_getElem? hr, List.mem_of_getElem? hg⟩
  have hkf : k ∈ ranks.flatten := List.mem_flatten.mpr ⟨B, List.mem_of_getElem? hsB, List.mem_of_getElem? hk⟩
  have hcut : Uncut fs x g k ↔ Uncut fs x k g := by
    unfold Uncut
    constructor <;> intro h f hf <;> rw [cuts_symmetric] <;> exact h f hf
  rw [hcut]
  constructor
  · rintro ⟨_, b, c, d⟩; exact ⟨hgf, b.symm, c, d⟩
  · rintro ⟨_, b, c, d⟩; exact ⟨hkf, b.symm, c, d⟩

/-- C15, definedness: with positive radii and filters that are not degenerate, the search of every processor
completes. -/
theorem search_defined (Z : Zoltan) (x : Nat → V3) (h : Nat → ℝ) {ranks : List (List Nat)} (fs : List BondFilter)
    (hZ : Z.Complete x ranks) (hd : Decomposition ranks) (hh : ∀ g ∈ ranks.flatten, 0 < h g)
    (hf : ∀ f ∈ fs, NonDegenerate f.shape)
    {r : Nat} {A : List Nat} (hr : ranks[r]? = some A) :
    ∃ ls, search Z x h ranks fs r = .ok ls := by
  obtain ⟨more, h1, h2, h3, _⟩ := overlapIds_ok Z x h hZ hd hr
  have hA : ranks.getD r [] = A := by rw [List.getD_eq_getElem?_getD, hr]; rfl
  simp only [search, h1, hA]
  apply buildAll_total
  intro i g hg
  rw [Nat.zero_add]
  apply buildOne_total hZ
  · exact (hh g (List.mem_flatten.mpr ⟨A, List.mem_of_getElem? hr, List.mem_of_getElem? hg⟩)).le
  · rw [List.getElem?_map, List.getElem?_append_left (List.getElem?_eq_some_iff.mp hg).1, hg]
    rfl
  · intro f hff
    unfold effectiveFilters at hff
    split at hff
    · simp only [List.mem_singleton] at hff
      rw [hff]
      trivial
    · exact hf f hff

/-! ### Concrete cases -/

/-- Two processors with the cutting plane `x = 1`; a box is assigned to the processors whose half space it
meets, a local search returns the points in the box. -/
def twoCells : Zoltan where
  boxAssign lo hi := (if lo 0 ≤ 1 then [0] else []) ++ (if 1 ≤ hi 0 then [1] else [])
  partAssign xs lo hi := (List.range xs.length).filter (fun i => decide (InBox lo hi (xs.getD i 0)))

theorem twoCells_complete (x : Nat → V3) (A B : List Nat) (hA : ∀ g ∈ A, x g 0 ≤ 1) (hB : ∀ g ∈ B, 1 ≤ x g 0) :
    twoCells.Complete x [A, B] where
  boxNodup lo hi := by
    simp only [twoCells]
    split <;> split <;> simp
  box lo hi r own g hr hg hin := by
    simp only [twoCells, List.mem_append]
    match r, hr with
    | 0, hr =>
      left
      simp only [List.getElem?_cons_zero, Option.some.injEq] at hr
      subst hr
      rw [if_pos (le_trans (hin 0).1 (hA g hg))]
      simp
    | 1, hr =>
      right
      simp only [List.getElem?_cons_succ, List.getElem?_cons_zero, Option.some.injEq] at hr
      subst hr
      rw [if_pos (le_trans (hB g hg) (hin 0).2)]
      simp
  partNodup xs lo hi := List.nodup_range.filter _
  partBound xs lo hi i hi' := List.mem_range.mp (List.mem_filter.mp hi').1
  part xs lo hi i X hX hin := by
    simp only [twoCells, List.mem_filter, List.mem_range, decide_eq_true_eq]
    refine ⟨(List.getElem?_eq_some_iff.mp hX).1, ?_⟩
    rw [List.getD_eq_getElem?_getD, hX]
    exact hin

/-- Four points on a line, at `0`, `1/2`, `3/2`, `2`. -/
def linePoints : Nat → V3
  | 0 => ![0, 0, 0]
  | 1 => ![1/2, 0, 0]
  | 2 => ![3/2, 0, 0]
  | _ => ![2, 0, 0]

theorem line_complete : twoCells.Complete linePoints [[0, 1], [2, 3]] := by
  apply twoCells_complete
  · intro g hg
    simp only [List.mem_cons, List.not_mem_nil, or_false] at hg
    rcases hg with rfl | rfl <;> simp [linePoints]
    norm_num
  · intro g hg
    simp only [List.mem_cons, List.not_mem_nil, or_false] at hg
    rcases hg with rfl | rfl <;> simp [linePoints]
    norm_num

theorem line_decomposition : Decomposition [[0, 1], [2, 3]] := ⟨by decide, by decide⟩

theorem line_separated : Separated linePoints [[0, 1], [2, 3]] := by
  have hlt : ∀ g ∈ [0, 1], ∀ k ∈ [2, 3], linePoints g 0 < linePoints k 0 := by
    intro g hg k hk
    simp only [List.mem_cons, List.not_mem_nil, or_false] at hg hk
    rcases hg with rfl | rfl <;> rcases hk with rfl | rfl <;> simp [linePoints] <;> norm_num
  intro r s hrs A B hr hs
  refine ⟨0, ?_⟩
  match r, s, hr, hs with
  | 0, 0, _, _ => exact absurd rfl hrs
  | 1, 1, _, _ => exact absurd rfl hrs
  | 0, 1, hr, hs =>
    simp at hr hs
    subst hr hs
    exact Or.inl hlt
  | 1, 0, hr, hs =>
    simp at hr hs
    subst hr hs
    exact Or.inr (fun g hg k hk => hlt k hk g hg)

/-- The hypotheses of the theorems of C15 are met by four points on two processors with radius 1: the search
completes and lists point 2 of the other processor, at distance 1, for point 1. -/
example : ∃ ls l, search twoCells linePoints (fun _ => 1) [[0, 1], [2, 3]] [] 0 = .ok ls ∧ ls[1]? = some l ∧ 2 ∈ l := by
  obtain ⟨ls, hls⟩ := search_defined twoCells linePoints (fun _ => 1) [] line_complete line_decomposition
    (fun _ _ => one_pos) (by simp) (r := 0) rfl
  have hself : ExcludesSelf [] := Or.inl rfl
  obtain ⟨h1, h2⟩ := search_exact_partial twoCells linePoints 1 one_pos [] line_complete line_decomposition
    hself line_separated (r := 0) rfl hls
  have hlen : 1 < ls.length := by rw [h1]; decide
  refine ⟨ls, ls[1], hls, List.getElem?_eq_getElem hlen, ?_⟩
  rw [(h2 1 1 ls[1] rfl (List.getElem?_eq_getElem hlen)).2]
  refine ⟨by decide, by decide, ?_, ?_⟩
  · simp [linePoints, len]
    norm_num
  · intro f hf
    cases hf

/-- C15 is false for radii that differ between points: point 1 has radius 1 and point 2, owned by the other
processor at distance 1, has radius `1/4`.  The box of point 2 does not reach the cell of the other processor,
so point 2 is not sent there, and it is missing from the neighbors of point 1. -/
theorem varying_radii_miss_neighbor :
    ∃ (Z : Zoltan) (x : Nat → V3) (h : Nat → ℝ) (ranks : List (List Nat)),
      Z.Complete x ranks ∧ Decomposition ranks ∧ Separated x ranks ∧ (∀ g, 0 < h g) ∧
      ∃ A g ls l, ranks[0]? = some A ∧ A[1]? = some g ∧ search Z x h ranks [] 0 = .ok ls ∧ ls[1]? = some l ∧
        ∃ k ∈ ranks.flatten, k ≠ g ∧ len (x k - x g) ≤ h g ∧ Uncut [] x g k ∧ k ∉ l := by
  refine ⟨twoCells, linePoints, fun g => if g = 2 then 1/4 else 1, [[0, 1], [2, 3]], line_complete,
    line_decomposition, line_separated, ?_, ?_⟩
  · intro g
    dsimp only
    split <;> norm_num
  have hh : ∀ g : Nat, (0 : ℝ) < (fun g => if g = 2 then 1/4 else 1 : Nat → ℝ) g := by
    intro g
    dsimp only
    split <;> norm_num
  have hself : ExcludesSelf [] := Or.inl rfl
  obtain ⟨ls, hls⟩ := search_defined twoCells linePoints (fun g => if g = 2 then 1/4 else 1) [] line_complete
    line_decomposition (fun g _ => hh g) (by simp) (r := 0) rfl
  obtain ⟨ids, h1, h2, h3⟩ := found_iff twoCells linePoints (fun g => if g = 2 then 1/4 else 1) [] line_complete
    line_decomposition (fun g _ => hh g) hself (r := 0) rfl hls
  have hlen : 1 < ls.length := by rw [h2]; decide
  refine ⟨[0, 1], 1, ls, ls[1], rfl, rfl, hls, List.getElem?_eq_getElem hlen, 2, by decide, by decide, ?_, ?_, ?_⟩
  · simp [linePoints, len]
    norm_num
  · intro f hf
    cases hf
  · intro hmem
    have h4 := (((h3 1 1 ls[1] rfl (List.getElem?_eq_getElem hlen)).2 2).mp hmem).1
    obtain ⟨more, h5, _, _, h6⟩ := overlapIds_ok twoCells linePoints (fun g => if g = 2 then 1/4 else 1)
      line_complete line_decomposition (r := 0) rfl
    rw [h1] at h5
    injection h5 with h5
    subst h5
    have h7 : 2 ∈ more := by simpa using h4
    have h8 := ((h6 1 [2, 3] 2 (by decide) rfl).mp ⟨h7, by decide⟩).2.1
    simp [twoCells, boxLo, boxHi, linePoints] at h8
    rcases h8 with h8 | h8
    · norm_num at h8
    · have hl : ∀ (P : Prop) [Decidable P], 0 ∉ (if P then [1] else []) := by
        intro P _
        split <;> simp
      exact hl _ h8

/-- Six points: 0, 1 and 2 belong to one processor, 3, 4 and 5 to another one; points 2 and 3 both lie on the
plane `x = 1`. -/
def tiePoints : Nat → V3
  | 0 => ![-5, -5, -5]
  | 1 => ![0, 0, 0]
  | 2 => ![1, 5, 5]
  | 3 => ![1, 0, 0]
  | 4 => ![2, 0, 0]
  | _ => ![3, 0, 0]

theorem tie_complete : twoCells.Complete tiePoints [[0, 1, 2], [3, 4, 5]] := by
  apply twoCells_complete
  · intro g hg
    simp only [List.mem_cons, List.not_mem_nil, or_false] at hg
    rcases hg with rfl | rfl | rfl <;> simp [tiePoints]
    norm_num
  · intro g hg
    simp only [List.mem_cons, List.not_mem_nil, or_false] at hg
    rcases hg with rfl | rfl | rfl <;> simp [tiePoints]

theorem tie_separated : WeaklySeparated tiePoints [[0, 1, 2], [3, 4, 5]] := by
  have hle : ∀ g ∈ [0, 1, 2], ∀ k ∈ [3, 4, 5], tiePoints g 0 ≤ tiePoints k 0 := by
    intro g hg k hk
    simp only [List.mem_cons, List.not_mem_nil, or_false] at hg hk
    rcases hg with rfl | rfl | rfl <;> rcases hk with rfl | rfl | rfl <;> simp [tiePoints] <;> norm_num
  intro r s hrs A B hr hs
  refine ⟨0, ?_⟩
  match r, s, hr, hs with
  | 0, 0, _, _ => exact absurd rfl hrs
  | 1, 1, _, _ => exact absurd rfl hrs
  | 0, 1, hr, hs =>
    simp at hr hs
    subst hr hs
    exact Or.inl hle
  | 1, 0, hr, hs =>
    simp at hr hs
    subst hr hs
    exact Or.inr (fun g hg k hk => hle k hk g hg)

/-- C15 is false at distance equal to the radius when processors share a cutting plane: whatever Zoltan answers,
point 1, at distance exactly 1 from point 3 of the other processor, is not in the frame set of its processor
because the upper side of the frame excludes coordinates equal to `max - radius`, and is missing from the
neighbors of point 3. -/
theorem tie_misses_neighbor :
    Decomposition [[0, 1, 2], [3, 4, 5]] ∧ WeaklySeparated tiePoints [[0, 1, 2], [3, 4, 5]] ∧
    len (tiePoints 1 - tiePoints 3) = 1 ∧
    ∀ Z : Zoltan, Z.Complete tiePoints [[0, 1, 2], [3, 4, 5]] →
      ∃ ls l, search Z tiePoints (fun _ => 1) [[0, 1, 2], [3, 4, 5]] [] 1 = .ok ls ∧ ls[0]? = some l ∧ 1 ∉ l := by
  have hd : Decomposition [[0, 1, 2], [3, 4, 5]] := ⟨by decide, by decide⟩
  refine ⟨hd, tie_separated, by simp [tiePoints, len], ?_⟩
  intro Z hZ
  have hself : ExcludesSelf [] := Or.inl rfl
  obtain ⟨ls, hls⟩ := search_defined Z tiePoints (fun _ => 1) [] hZ hd (fun _ _ => one_pos) (by simp) (r := 1) rfl
  obtain ⟨ids, h1, h2, h3⟩ := found_iff Z tiePoints (fun _ => 1) [] hZ hd (fun _ _ => one_pos) hself (r := 1) rfl hls
  have hlen : 0 < ls.length := by rw [h2]; decide
  refine ⟨ls, ls[0], hls, List.getElem?_eq_getElem hlen, ?_⟩
  intro hmem
  have h4 := (((h3 0 3 ls[0] rfl (List.getElem?_eq_getElem hlen)).2 1).mp hmem).1
  obtain ⟨more, h5, _, _, h6⟩ := overlapIds_ok Z tiePoints (fun _ => 1) hZ hd (r := 1) rfl
  rw [h1] at h5
  injection h5 with h5
  subst h5
  have h7 : 1 ∈ more := by simpa using h4
  obtain ⟨c, h8⟩ := ((h6 0 [0, 1, 2] 1 (by decide) rfl).mp ⟨h7, by decide⟩).2.2
  have hmax : maxHorizon (List.map (fun _ : Nat => (1 : ℝ)) [0, 1, 2]) = 1 := by simp [maxHorizon]
  rw [hmax] at h8
  rcases h8 with ⟨j, hj, hj1, hj2⟩ | ⟨j, hj, hj1, hj2⟩
  · have h0 := hj1 0 (by decide)
    fin_cases c <;> simp [tiePoints] at h0 hj2 <;> linarith
  · have h0 := hj1 2 (by decide)
    fin_cases c <;> simp [tiePoints] at h0 hj2 <;> linarith

/-- A processor without points reads the first entry of an empty array. -/
theorem empty_processor_ub (Z : Zoltan) (x : Nat → V3) (h : Nat → ℝ) (B : List Nat) (fs : List BondFilter) :
    search Z x h [[], B] fs 0 = .ub ∨ ∃ f, search Z x h [[], B] fs 0 = .fail f := by
  have h0 : constructFrameSet ([] : List V3) (maxHorizon []) = .ub := by
    simp [constructFrameSet, frameAxis, sortedMap]
  have h1 : sendsOf Z x h [[], B] 0 = .ub := by
    simp [sendsOf, h0]
  have h2 : ∀ l, received Z x h [[], B] 0 (0 :: l) = .ub ∨ ∃ f, received Z x h [[], B] 0 (0 :: l) = .fail f := by
    intro l
    simp only [received, h1]
    cases received Z x h [[], B] 0 l with
    | ok a => exact Or.inl rfl
    | fail f => exact Or.inr ⟨f, rfl⟩
    | ub => exact Or.inl rfl
  have h3 : List.range ([[], B] : List (List Nat)).length = [0, 1] := rfl
  simp only [search, overlapIds, h3]
  rcases h2 [1] with h | ⟨f, h⟩
  · rw [h]; exact Or.inl rfl
  · rw [h]; exact Or.inr ⟨f, rfl⟩

end Verif.Search
