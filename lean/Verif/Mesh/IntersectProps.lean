import Verif.Mesh.IntersectLemmas
import Verif.Mesh.ExodusProps

/-! C124: neighborhoods of elements that intersect the horizon. -/

noncomputable section

namespace Verif.Mesh

open Verif Verif.Mech Verif.Neigh Verif.Geometry Verif.Redist Verif.Filter Verif.Search
open scoped Classical

/-! ### The nodes of an element -/

/-- **C124** The stored mesh gives for the id of every element the positions of its nodes, in order. -/
theorem C124_nodes {g : Genesis} {ids nodeIds : List Nat} (h : WellFormed g ids) (hn : nodeIds.Nodup)
    (hl : nodeIds.length = g.coords.length) :
    ∃ m, storeMesh g ids nodeIds = .ok m ∧
      (∀ (k gid : Nat) (b : ElemBlock) (e : Nat), ids[k]? = some gid → (elements g.blocks)[k]? = some (b, e) →
        exodusNodes m gid = .ok ((List.range b.nodesPerElem).map (corner g b e))) ∧
      ∀ gid, gid ∉ ids → exodusNodes m gid = .fail .terminate := by
  have hnodes : ∀ b ∈ g.blocks, ∀ e < b.numElem, ∀ i < b.nodesPerElem, ∃ c, HasNode b e i c ∧ c < nodeIds.length := by
    rw [hl]
    exact h.nodes
  refine ⟨⟨ids, (elements g.blocks).map fun t => t.1.nodesPerElem,
    (elements g.blocks).flatMap (connOf nodeIds), nodeIds, g.coords⟩, ?_, ?_, ?_⟩
  · rw [storeMesh, connBlocks_eq g.blocks hnodes, sizes_eq]
    rfl
  · intro k gid b e hk he
    obtain ⟨hb, hlt⟩ := mem_elements (List.mem_of_getElem? he)
    rw [exodusNodes]
    simp only
    rw [if_neg (not_not.2 (List.mem_of_getElem? hk)), lid_self h.nodup hk]
    simp only [Outcome.ok_bind]
    rw [readAt_eq_ok.2 (show ((elements g.blocks).map fun t => t.1.nodesPerElem)[k]? = some b.nodesPerElem by
      rw [List.getElem?_map, he]; rfl)]
    simp only [Outcome.ok_bind]
    obtain ⟨hklt, hget⟩ := List.getElem?_eq_some_iff.mp he
    have hsplit : elements g.blocks = (elements g.blocks).take k ++ (b, e) :: (elements g.blocks).drop (k + 1) := by
      conv_lhs => rw [← List.take_append_drop k (elements g.blocks), List.drop_eq_getElem_cons hklt, hget]
    have hread : readIds ((elements g.blocks).flatMap (connOf nodeIds))
        (((elements g.blocks).map fun t => t.1.nodesPerElem).take k).sum b.nodesPerElem =
        .ok (connOf nodeIds (b, e)) := by
      conv_lhs =>
        rw [show (elements g.blocks).flatMap (connOf nodeIds) =
          ((elements g.blocks).take k).flatMap (connOf nodeIds) ++
            (connOf nodeIds (b, e) ++ ((elements g.blocks).drop (k + 1)).flatMap (connOf nodeIds)) by
            conv_lhs => rw [hsplit, List.flatMap_append, List.flatMap_cons]]
      apply readIds_mid
      · rw [flatMap_length_eq, List.map_take]
      · simp [connOf]
    rw [hread]
    simp only [Outcome.ok_bind]
    rw [List.range_eq_range']
    exact positionsOf_eq hn hl (h.nodes b hb e hlt) b.nodesPerElem 0 (by omega)
  · intro gid hg
    rw [exodusNodes]
    simp only
    rw [if_pos hg]

example : ∃ m, storeMesh cubeAndBalls [4, 0, 2] [0, 1, 2, 3, 4, 5, 6, 7, 8] = .ok m ∧
    exodusNodes m 0 = .ok [![5, 0, 0]] ∧ exodusNodes m 3 = .fail .terminate := by
  obtain ⟨m, h1, h2, h3⟩ := C124_nodes cubeAndBalls_wellFormed (nodeIds := [0, 1, 2, 3, 4, 5, 6, 7, 8])
    (by decide) rfl
  refine ⟨m, h1, ?_, h3 3 (by decide)⟩
  rw [h2 1 0 ⟨7, "balls", "Sphere", 2, 1, [9, 2], 2, [1, 4, 2, 32]⟩ 0 rfl rfl]
  rfl

/-! ### The largest element -/

/-- The element is a hexahedron with the nodes `n`. -/
def IsHex (nodesOf : Nat → Outcome (List V3)) (n : Nat → Fin 8 → V3) (gid : Nat) : Prop :=
  nodesOf gid = .ok (List.ofFn (n gid))

theorem getD_ofFn (n : Fin 8 → V3) (i : Fin 8) : (List.ofFn n).getD i 0 = n i := by
  rw [List.getD_eq_getElem?_getD, List.getElem?_ofFn]
  simp

theorem elementDimension_hex {nodesOf : Nat → Outcome (List V3)} {n : Nat → Fin 8 → V3} {g : Nat} (m : ℝ)
    (h : IsHex nodesOf n g) : elementDimension nodesOf m g = .ok (pairMax (List.ofFn (n g)) 8 m) := by
  rw [elementDimension, h]
  simp only [Outcome.ok_bind]
  rw [if_neg (by simp), if_neg (by simp), if_pos (by simp)]

theorem localLoop_hex {nodesOf : Nat → Outcome (List V3)} {n : Nat → Fin 8 → V3} (own : List Nat)
    (h : ∀ g ∈ own, IsHex nodesOf n g) : ∀ m : ℝ, 0 ≤ m →
    ∃ r, own.foldlM (elementDimension nodesOf) m = .ok r ∧ m ≤ r ∧
      (∀ g ∈ own, ∀ i j, distance (n g i) (n g j) ^ 2 ≤ r) ∧
      (r = m ∨ ∃ g ∈ own, ∃ i j, r = distance (n g i) (n g j) ^ 2) := by
  induction own with
  | nil => intro m _; exact ⟨m, rfl, le_refl _, by simp, .inl rfl⟩
  | cons g own ih =>
    intro m hm
    obtain ⟨p1, p2, p3⟩ := pairMax_spec (List.ofFn (n g)) 8 hm
    obtain ⟨r, e1, e2, e3, e4⟩ := ih (fun k hk => h k (List.mem_cons_of_mem _ hk)) _ (hm.trans p1)
    refine ⟨r, ?_, p1.trans e2, ?_, ?_⟩
    · rw [List.foldlM_cons, elementDimension_hex m (h g List.mem_cons_self)]
      exact e1
    · intro k hk i j
      rcases List.mem_cons.1 hk with rfl | hk
      · have := p2 i i.2 j j.2
        rw [squareOf_eq, getD_ofFn, getD_ofFn] at this
        exact this.trans e2
      · exact e3 k hk i j
    · rcases e4 with e4 | ⟨k, hk, i, j, e4⟩
      · rcases p3 with p3 | ⟨i, hi, j, hj, p3⟩
        · exact .inl (e4.trans p3)
        · refine .inr ⟨g, List.mem_cons_self, ⟨i, hi⟩, ⟨j, hj⟩, ?_⟩
          rw [e4, p3, squareOf_eq, ← getD_ofFn (n g) ⟨i, hi⟩, ← getD_ofFn (n g) ⟨j, hj⟩]
      · exact .inr ⟨k, List.mem_cons_of_mem _ hk, i, j, e4⟩

theorem foldl_max_spec (l : List ℝ) : ∀ m : ℝ, m ≤ l.foldl max m ∧ (∀ a ∈ l, a ≤ l.foldl max m) ∧
    (l.foldl max m = m ∨ l.foldl max m ∈ l) := by
  induction l with
  | nil => intro m; simp
  | cons a l ih =>
    intro m
    rw [List.foldl_cons]
    obtain ⟨h1, h2, h3⟩ := ih (max m a)
    refine ⟨(le_max_left _ _).trans h1, ?_, ?_⟩
    · intro b hb
      rcases List.mem_cons.1 hb with rfl | hb
      · exact (le_max_right _ _).trans h1
      · exact h2 b hb
    · rcases h3 with h3 | h3
      · rcases max_choice m a with hc | hc
        · exact .inl (h3.trans hc)
        · exact .inr (by rw [h3, hc]; exact List.mem_cons_self)
      · exact .inr (List.mem_cons_of_mem _ h3)

/-- **C124** For a mesh of hexahedra, the length by which the search is expanded is the largest distance of two
nodes of one element, on whatever processor. -/
theorem C124_dimension {nodesOf : Nat → Outcome (List V3)} {n : Nat → Fin 8 → V3} {ranks : List (List Nat)}
    (h : ∀ g ∈ ranks.flatten, IsHex nodesOf n g) :
    ∃ d, maxElementDimension true nodesOf ranks = .ok d ∧
      (∀ g ∈ ranks.flatten, ∀ i j, distance (n g i) (n g j) ≤ d) ∧
      (ranks.flatten ≠ [] → ∃ g ∈ ranks.flatten, ∃ i j, d = distance (n g i) (n g j)) := by
  have hloc : ∀ own ∈ ranks, ∃ d, localDimension nodesOf own = .ok d ∧ 0 ≤ d ∧
      (∀ g ∈ own, ∀ i j, distance (n g i) (n g j) ≤ d) ∧
      (d = 0 ∨ ∃ g ∈ own, ∃ i j, d = distance (n g i) (n g j)) := by
    intro own hown
    obtain ⟨r, e1, e2, e3, e4⟩ := localLoop_hex own
      (fun g hg => h g (List.mem_flatten.mpr ⟨own, hown, hg⟩)) 0 (le_refl _)
    refine ⟨Real.sqrt r, ?_, Real.sqrt_nonneg _, ?_, ?_⟩
    · rw [localDimension, e1]
      rfl
    · intro g hg i j
      exact Real.le_sqrt_of_sq_le (e3 g hg i j)
    · rcases e4 with e4 | ⟨g, hg, i, j, e4⟩
      · exact .inl (by rw [e4, Real.sqrt_zero])
      · exact .inr ⟨g, hg, i, j, by rw [e4, Real.sqrt_sq (distance_nonneg _ _)]⟩
  have hex : ∀ own : List Nat, ∃ d, own ∈ ranks → (localDimension nodesOf own = .ok d ∧ 0 ≤ d ∧
      (∀ g ∈ own, ∀ i j, distance (n g i) (n g j) ≤ d) ∧
      (d = 0 ∨ ∃ g ∈ own, ∃ i j, d = distance (n g i) (n g j))) := by
    intro own
    by_cases hm : own ∈ ranks
    · obtain ⟨d, hd⟩ := hloc own hm
      exact ⟨d, fun _ => hd⟩
    · exact ⟨0, fun hc => absurd hc hm⟩
  choose dim hdim using hex
  have hall : allOk (localDimension nodesOf) ranks = .ok (ranks.map dim) := by
    rw [allOk_iff, List.forall₂_map_right_iff, List.forall₂_same]
    exact fun own hown => (hdim own hown).1
  obtain ⟨f1, f2, f3⟩ := foldl_max_spec (ranks.map dim) 0
  have hbound : ∀ g ∈ ranks.flatten, ∀ i j, distance (n g i) (n g j) ≤ (ranks.map dim).foldl max 0 := by
    intro g hg i j
    obtain ⟨own, hown, hgo⟩ := List.mem_flatten.mp hg
    exact ((hdim own hown).2.2.1 g hgo i j).trans (f2 _ (List.mem_map.mpr ⟨own, hown, rfl⟩))
  refine ⟨(ranks.map dim).foldl max 0, ?_, hbound, ?_⟩
  · rw [maxElementDimension, if_neg (by simp), hall]
    rfl
  · intro hne
    have hzero : (ranks.map dim).foldl max 0 = 0 → ∃ g ∈ ranks.flatten, ∃ i j,
        (ranks.map dim).foldl max 0 = distance (n g i) (n g j) := by
      intro h0
      obtain ⟨g, hg⟩ := List.exists_mem_of_ne_nil _ hne
      have := hbound g hg 0 0
      exact ⟨g, hg, 0, 0, le_antisymm (by rw [h0]; exact distance_nonneg _ _) this⟩
    rcases f3 with f3 | f3
    · exact hzero f3
    · obtain ⟨own, hown, he⟩ := List.mem_map.mp f3
      rcases (hdim own hown).2.2.2 with h0 | ⟨g, hg, i, j, hd⟩
      · exact hzero (by rw [← he, h0])
      · exact ⟨g, List.mem_flatten.mpr ⟨own, hown, hg⟩, i, j, by rw [← he, hd]⟩

/-! ### The neighbors -/

theorem removeNonintersecting_ok {nodesOf : Nat → Outcome (List V3)} {n : Nat → Fin 8 → V3} {x : Nat → V3}
    {h : Nat → ℝ} {nb : Nat → List Nat} {c : NbPart} (hc : Holds nb c) (hh : ∀ g ∈ c.owned, 0 ≤ h g)
    (hn : ∀ g ∈ c.owned, ∀ k ∈ nb g, IsHex nodesOf n k) :
    ∃ r, removeNonintersecting nodesOf x h c = .ok r ∧ r.owned = c.owned ∧
      Holds (fun g => (nb g).filter fun k => Meets n x h g k) r ∧
      ∃ ghosts, r.overlap = r.owned ++ ghosts ∧ ghosts.Pairwise (· < ·) ∧
        ∀ g, g ∈ ghosts ↔ (∃ o ∈ r.owned, g ∈ (nb o).filter fun k => Meets n x h o k) ∧ g ∉ r.owned := by
  obtain ⟨lists, h1, h2⟩ := hc
  have hlen : lists.length ≤ c.list.length := by
    rw [h1, encode, List.length_flatMap]
    calc lists.length = (lists.map fun _ => 1).sum := by simp
      _ ≤ (lists.map fun ns => (ns.length :: ns).length).sum := by
        apply List.sum_le_sum
        intro l _
        simp
  have hloop := refineLoop_eq (nodesOf := nodesOf) (n := n) (x := x) (h := h) (nb := nb) (owned := c.owned)
    (ov := c.overlap) hh hn lists [] c.owned c.list.length (by simp) rfl hlen h2
  rw [List.nil_append, ← h1] at hloop
  have hmem : ∀ g, g ∈ c.owned ++ (sortUnique (c.owned.map fun g => (nb g).filter fun k => Meets n x h g k).flatten).filter
      (fun gid => gid ∉ c.owned) ↔ g ∈ c.owned ∨ ∃ o ∈ c.owned, g ∈ (nb o).filter fun k => Meets n x h o k := by
    intro g
    rw [List.mem_append, List.mem_filter, mem_sortUnique, List.mem_flatten]
    constructor
    · rintro (hg | ⟨⟨l, hl, hg⟩, -⟩)
      · exact .inl hg
      · obtain ⟨o, ho, rfl⟩ := List.mem_map.mp hl
        exact .inr ⟨o, ho, hg⟩
    · rintro (hg | ⟨o, ho, hg⟩)
      · exact .inl hg
      · by_cases hgo : g ∈ c.owned
        · exact .inl hgo
        · exact .inr ⟨⟨_, List.mem_map.mpr ⟨o, ho, rfl⟩, hg⟩, by simpa using hgo⟩
  refine ⟨⟨c.owned, c.owned ++ (sortUnique
      (c.owned.map fun g => (nb g).filter fun k => Meets n x h g k).flatten).filter (fun gid => gid ∉ c.owned),
      encode ((c.owned.map fun g => (nb g).filter fun k => Meets n x h g k).map (·.map (c.owned ++ (sortUnique
      (c.owned.map fun g => (nb g).filter fun k => Meets n x h g k).flatten).filter
        (fun gid => gid ∉ c.owned)).idxOf))⟩, ?_, rfl, ?_, ⟨(sortUnique (c.owned.map fun g => (nb g).filter fun k => Meets n x h g k).flatten).filter
      (fun gid => gid ∉ c.owned), rfl, ?_, ?_⟩⟩
  · rw [removeNonintersecting]
    rw [show refineLoop nodesOf x h c c.list.length 0 0 = .ok _ from hloop]
    simp only [Outcome.ok_bind]
    rw [relabelAll_eq]
    · rfl
    · intro l hl g hg
      obtain ⟨o, ho, rfl⟩ := List.mem_map.mp hl
      exact (hmem g).mpr (.inr ⟨o, ho, hg⟩)
  · refine ⟨_, rfl, ?_⟩
    rw [List.forall₂_map_left_iff]
    show List.Forall₂ _ (c.owned.map _) c.owned
    rw [List.forall₂_map_left_iff, List.forall₂_same]
    intro g hg
    rw [List.map_map]
    apply List.map_congr_left
    intro k hk
    simp only [Function.comp]
    exact readAt_eq_ok.1 (readAt_idxOf _ _ ((hmem k).mpr (.inr ⟨g, hg, hk⟩)))
  · exact (sorted_sortUnique _).filter _
  · intro g
    rw [List.mem_filter, mem_sortUnique, List.mem_flatten]
    constructor
    · rintro ⟨⟨l, hl, hg⟩, hgo⟩
      obtain ⟨o, ho, rfl⟩ := List.mem_map.mp hl
      exact ⟨⟨o, ho, hg⟩, by simpa using hgo⟩
    · rintro ⟨⟨o, ho, hg⟩, hgo⟩
      exact ⟨⟨_, List.mem_map.mpr ⟨o, ho, rfl⟩, hg⟩, by simpa using hgo⟩

theorem delivered_refined {nodesOf : Nat → Outcome (List V3)} {n : Nat → Fin 8 → V3} {x : Nat → V3}
    {h : Nat → ℝ} {nb : Nat → List Nat} {ranks : List (List Nat)} {res : List NbPart} (hd : Delivered nb ranks res)
    (hh : ∀ g ∈ ranks.flatten, 0 ≤ h g) (hn : ∀ g ∈ ranks.flatten, ∀ k ∈ nb g, IsHex nodesOf n k) :
    ∃ out, allOk (removeNonintersecting nodesOf x h) res = .ok out ∧
      Delivered (fun g => (nb g).filter fun k => Meets n x h g k) ranks out := by
  have hmem : ∀ r ∈ res, ∀ g ∈ r.owned, g ∈ ranks.flatten := by
    intro r hr g hg
    rw [← hd.1]
    exact List.mem_flatten.mpr ⟨_, List.mem_map.mpr ⟨r, hr, rfl⟩, hg⟩
  have hex : ∀ c : NbPart, ∃ r, c ∈ res → (removeNonintersecting nodesOf x h c = .ok r ∧ r.owned = c.owned ∧
      Holds (fun g => (nb g).filter fun k => Meets n x h g k) r ∧
      ∃ ghosts, r.overlap = r.owned ++ ghosts ∧ ghosts.Pairwise (· < ·) ∧
        ∀ g, g ∈ ghosts ↔ (∃ o ∈ r.owned, g ∈ (nb o).filter fun k => Meets n x h o k) ∧ g ∉ r.owned) := by
    intro c
    by_cases hc : c ∈ res
    · obtain ⟨r, hr⟩ := removeNonintersecting_ok (x := x) (h := h) (hd.2 c hc).1 (fun g hg => hh g (hmem c hc g hg))
        (fun g hg => hn g (hmem c hc g hg))
      exact ⟨r, fun _ => hr⟩
    · exact ⟨c, fun h => absurd h hc⟩
  choose out hout using hex
  refine ⟨res.map out, ?_, ?_, ?_⟩
  · rw [allOk_iff, List.forall₂_map_right_iff, List.forall₂_same]
    exact fun c hc => (hout c hc).1
  · rw [← hd.1, List.map_map]
    exact List.map_congr_left fun c hc => (hout c hc).2.1
  · intro r hr
    obtain ⟨c, hc, rfl⟩ := List.mem_map.mp hr
    exact (hout c hc).2.2

/-- A sphere that the element meets reaches from its center to a point of the surface. -/
theorem meets_point {n : Nat → Fin 8 → V3} {x : Nat → V3} {h : Nat → ℝ} {g k : Nat} (hr : 0 ≤ h g)
    (hreg : Regular (n k)) (hm : Meets n x h g k) : ∃ p, OnSurface (n k) p ∧ distance p (x g) ≤ h g := by
  by_contra hc
  push Not at hc
  exact hm (C120_hex_far hr hreg hc)

/-- **C124** Let the mesh consist of hexahedra that are not distorted, with their centroids as points, and let all
points have the same horizon.  With "Compute Element-Horizon Intersections" the neighbors of a point are then
exactly the other elements that meet its horizon and whose bond no filter cuts, each once; an element is
found also if its centroid is outside the horizon.  (Partial: the decomposition of Zoltan is separated by
planes, as in C121.) -/
theorem C124_exact_partial (Z : Zoltan) (pick1 pick2 : Nat → Nat → Nat) {balanced ranks : List (List Nat)}
    (x : Nat → V3) (R : ℝ) (fs : List BondFilter) (nodesOf : Nat → Outcome (List V3)) (n : Nat → Fin 8 → V3)
    (store interfaces : Option Bool) (hi : interfaces ≠ some false)
    (hZ : Z.Complete x balanced) (hd : Decomposition balanced) (hsep : Separated x balanced)
    (hsame : ∀ g, g ∈ balanced.flatten ↔ g ∈ ranks.flatten)
    (hp1 : Reaches pick1 balanced ranks) (hp2 : Reaches pick2 balanced ranks)
    (hpos : 0 < R) (hself : ExcludesSelf fs) (hf : ∀ f ∈ fs, NonDegenerate f.shape)
    (hhex : ∀ g ∈ ranks.flatten, IsHex nodesOf n g) (hreg : ∀ g ∈ ranks.flatten, Regular (n g))
    (hcen : ∀ g ∈ ranks.flatten, ∃ v, hexCentroidAndVolume (n g) = .ok (x g, v)) :
    ∃ nb res, exodusLists store (some true) interfaces nodesOf Z pick1 pick2 balanced x (fun _ => R) fs ranks = .ok res ∧
      Delivered nb ranks res ∧
      ∀ g ∈ ranks.flatten, (nb g).Nodup ∧ ∀ k, k ∈ nb g ↔ k ∈ ranks.flatten ∧ k ≠ g ∧ Uncut fs x g k ∧
        hexahedronSphere (n k) (x g) R ≠ .ok .outside := by
  obtain ⟨d, hdim, hbound, -⟩ := C124_dimension hhex
  by_cases hne : ranks.flatten = []
  · have hd0 : 0 ≤ d := by
      rw [maxElementDimension, if_neg (by simp)] at hdim
      obtain ⟨ls, -, hl⟩ := Outcome.bind_eq_ok.mp hdim
      injection hl with hl
      rw [← hl]
      exact (foldl_max_spec ls 0).1
    obtain ⟨nb, res, h1, h2, h3⟩ := C121_exact_partial Z pick1 pick2 x R d fs hZ hd hsep hsame hp1 hp2 hpos
      (by linarith) hself hf
    obtain ⟨out, h4, h5⟩ := delivered_refined (nodesOf := nodesOf) (n := n) (x := x) (h := fun _ => R) h2
      (fun _ _ => hpos.le) (by rw [hne]; simp)
    refine ⟨_, out, ?_, h5, by rw [hne]; simp⟩
    have hflags : (meshFlags store (some true) interfaces).2.1 = true ∧
        (meshFlags store (some true) interfaces).1 = true := by
      rcases interfaces with _ | _ | _
      · exact ⟨rfl, rfl⟩
      · exact absurd rfl hi
      · exact ⟨rfl, rfl⟩
    rw [exodusLists, if_pos hflags.1, hflags.2, hdim]
    simp only [Outcome.ok_bind]
    rw [h1]
    exact h4
  · have hd0 : 0 ≤ d := by
      obtain ⟨g, hg⟩ := List.exists_mem_of_ne_nil _ hne
      exact (distance_nonneg _ _).trans (hbound g hg 0 0)
    obtain ⟨nb, res, h1, h2, h3⟩ := C121_exact_partial Z pick1 pick2 x R d fs hZ hd hsep hsame hp1 hp2 hpos
      (by linarith) hself hf
    obtain ⟨out, h4, h5⟩ := delivered_refined (nodesOf := nodesOf) (n := n) (x := x) (h := fun _ => R) h2
      (fun _ _ => hpos.le) (fun g hg k hk => hhex k (((h3 g hg).2 k).mp hk).1)
    refine ⟨_, out, ?_, h5, ?_⟩
    · have hflags : (meshFlags store (some true) interfaces).2.1 = true ∧
          (meshFlags store (some true) interfaces).1 = true := by
        rcases interfaces with _ | _ | _
        · exact ⟨rfl, rfl⟩
        · exact absurd rfl hi
        · exact ⟨rfl, rfl⟩
      rw [exodusLists, if_pos hflags.1, hflags.2, hdim]
      simp only [Outcome.ok_bind]
      rw [h1]
      exact h4
    · intro g hg
      refine ⟨(h3 g hg).1.filter _, ?_⟩
      intro k
      simp only [List.mem_filter, decide_eq_true_eq]
      rw [(h3 g hg).2 k]
      constructor
      · rintro ⟨⟨k1, k2, -, k4⟩, hm⟩
        exact ⟨k1, k2, k4, hm⟩
      · rintro ⟨k1, k2, k4, hm⟩
        refine ⟨⟨k1, k2, ?_, k4⟩, hm⟩
        obtain ⟨p, hp1, hp2⟩ := meets_point (n := n) (x := x) (h := fun _ => R) (g := g) hpos.le (hreg k k1) hm
        obtain ⟨v, hv⟩ := hcen k k1
        rw [len_eq_distance]
        have h6 := hull_diameter (hbound k k1) (C118_hex_hull hv) (surface_hull hp1)
        have h7 := distance_triangle (x k) p (x g)
        linarith

/-- **C124** In terms of the elements themselves: every neighbor has a point within the horizon, and every other
element that has a point inside the horizon and does not contain the center of it is a neighbor, unless a
filter cuts the bond. -/
theorem C124_geometric_partial (Z : Zoltan) (pick1 pick2 : Nat → Nat → Nat) {balanced ranks : List (List Nat)}
    (x : Nat → V3) (R : ℝ) (fs : List BondFilter) (nodesOf : Nat → Outcome (List V3)) (n : Nat → Fin 8 → V3)
    (store interfaces : Option Bool) (hi : interfaces ≠ some false)
    (hZ : Z.Complete x balanced) (hd : Decomposition balanced) (hsep : Separated x balanced)
    (hsame : ∀ g, g ∈ balanced.flatten ↔ g ∈ ranks.flatten)
    (hp1 : Reaches pick1 balanced ranks) (hp2 : Reaches pick2 balanced ranks)
    (hpos : 0 < R) (hself : ExcludesSelf fs) (hf : ∀ f ∈ fs, NonDegenerate f.shape)
    (hhex : ∀ g ∈ ranks.flatten, IsHex nodesOf n g) (hreg : ∀ g ∈ ranks.flatten, Regular (n g))
    (hcen : ∀ g ∈ ranks.flatten, ∃ v, hexCentroidAndVolume (n g) = .ok (x g, v)) :
    ∃ nb res, exodusLists store (some true) interfaces nodesOf Z pick1 pick2 balanced x (fun _ => R) fs ranks = .ok res ∧
      Delivered nb ranks res ∧
      ∀ g ∈ ranks.flatten,
        (∀ k ∈ nb g, k ∈ ranks.flatten ∧ k ≠ g ∧ Uncut fs x g k ∧ ∃ p, Solid (n k) p ∧ distance p (x g) ≤ R) ∧
        ∀ k ∈ ranks.flatten, k ≠ g → Uncut fs x g k → ¬ Solid (n k) (x g) →
          (∃ p, Solid (n k) p ∧ distance p (x g) < R) → k ∈ nb g := by
  obtain ⟨nb, res, h1, h2, h3⟩ := C124_exact_partial Z pick1 pick2 x R fs nodesOf n store interfaces hi hZ hd hsep
    hsame hp1 hp2 hpos hself hf hhex hreg hcen
  refine ⟨nb, res, h1, h2, ?_⟩
  intro g hg
  refine ⟨?_, ?_⟩
  · intro k hk
    obtain ⟨k1, k2, k3, k4⟩ := ((h3 g hg).2 k).mp hk
    obtain ⟨p, q1, q2⟩ := meets_point (n := n) (x := x) (h := fun _ => R) (g := g) hpos.le (hreg k k1) k4
    exact ⟨k1, k2, k3, p, surface_solid q1, q2⟩
  · rintro k k1 k2 k3 hs ⟨p, hp, hlt⟩
    refine ((h3 g hg).2 k).mpr ⟨k1, k2, k3, ?_⟩
    intro ho
    exact absurd (C120_hex_outside_partial hpos.le (hreg k k1) hs ho p hp) (not_le.mpr hlt)

/-- Small cubes around the points on the line. -/
def lineCubes (g : Nat) : Fin 8 → V3 := brick (linePoints g - ![1/8, 1/8, 1/8]) ![1/4, 0, 0] ![0, 1/4, 0] ![0, 0, 1/4]

theorem lineCubes_det : 0 < det3 ![1/4, 0, 0] ![0, 1/4, 0] ![0, 0, 1/4] := by
  rw [det3_eq]
  unfold triple
  simp only [Matrix.cons_val_zero, Matrix.cons_val_one, Matrix.cons_val]
  norm_num

example : ∃ nb res, exodusLists none (some true) none (fun g => .ok (List.ofFn (lineCubes g))) twoCells
      (fun _ g => if g ≤ 1 then 0 else 1) (fun _ g => if g ≤ 1 then 0 else 1) [[0, 1], [2, 3]] linePoints
      (fun _ => 3/4) [] [[0, 2], [3, 1]] = .ok res ∧ Delivered nb [[0, 2], [3, 1]] res ∧
    ∀ k ∈ nb 1, k ≠ 1 ∧ ∃ p, Solid (lineCubes k) p ∧ distance p (linePoints 1) ≤ 3/4 := by
  obtain ⟨nb, res, h1, h2, h3⟩ := C124_geometric_partial twoCells (fun _ g => if g ≤ 1 then 0 else 1)
    (fun _ g => if g ≤ 1 then 0 else 1) linePoints (3/4) [] (fun g => .ok (List.ofFn (lineCubes g))) lineCubes
    none none (by simp) line_complete line_decomposition line_separated line_same line_reaches line_reaches
    (by norm_num) (Or.inl rfl) (by simp) (fun _ _ => rfl) (fun _ _ => brick_regular lineCubes_det)
    (fun g _ => ⟨_, by
      rw [lineCubes, C118_brick lineCubes_det]
      congr 2
      funext j
      fin_cases j <;> simp only [Pi.add_apply, Pi.sub_apply, Pi.smul_apply, smul_eq_mul, Fin.zero_eta, Fin.mk_one,
        Fin.reduceFinMk, Matrix.cons_val_zero, Matrix.cons_val_one, Matrix.cons_val] <;> ring⟩)
  exact ⟨nb, res, h1, h2, fun k hk => ⟨((h3 1 (by decide)).1 k hk).2.1, ((h3 1 (by decide)).1 k hk).2.2.2⟩⟩

/-! ### What is refused -/

/-- **C124, refuted for one order of options** If the option "Construct Interfaces" is given as false, the
intersections cannot be computed: it takes back the decision to store the mesh, and the program ends. -/
theorem C124_broken (store : Option Bool) (nodesOf : Nat → Outcome (List V3)) (Z : Zoltan)
    (pick1 pick2 : Nat → Nat → Nat) (balanced : List (List Nat)) (x : Nat → V3) (h : Nat → ℝ)
    (fs : List BondFilter) (ranks : List (List Nat)) :
    exodusLists store (some true) (some false) nodesOf Z pick1 pick2 balanced x h fs ranks = .fail .terminate := by
  rw [exodusLists, if_pos (by rfl), show (meshFlags store (some true) (some false)).1 = false from rfl,
    maxElementDimension, if_pos rfl]
  rfl

example : exodusLists none (some true) (some false) (fun g => .ok (List.ofFn (lineCubes g))) twoCells
    (fun _ _ => 0) (fun _ _ => 0) [[0, 1], [2, 3]] linePoints (fun _ => 3/4) [] [[0, 2], [3, 1]] =
    .fail .terminate := C124_broken _ _ _ _ _ _ _ _ _ _

/-- **C124** Without the option, the lists are those of the search with the horizon alone. -/
theorem C124_off (store interfaces compute : Option Bool) (hc : compute ≠ some true)
    (nodesOf : Nat → Outcome (List V3)) (Z : Zoltan)
    (pick1 pick2 : Nat → Nat → Nat) (balanced : List (List Nat)) (x : Nat → V3) (h : Nat → ℝ)
    (fs : List BondFilter) (ranks : List (List Nat)) :
    exodusLists store compute interfaces nodesOf Z pick1 pick2 balanced x h fs ranks =
      globalProximitySearch Z pick1 pick2 balanced x h 0 fs ranks := by
  have : (meshFlags store compute interfaces).2.1 = false := by
    rcases compute with _ | _ | _
    · rcases interfaces with _ | _ <;> rfl
    · rcases interfaces with _ | _ <;> rfl
    · exact absurd rfl hc
  rw [exodusLists, if_neg (by rw [this]; simp)]

example : exodusLists none none none (fun _ => .ub) twoCells (fun _ _ => 0) (fun _ _ => 0) [[0, 1], [2, 3]]
    linePoints (fun g => if g = 3 then 0 else 1) [] [[0, 2], [3, 1]] = .fail .terminate := by
  rw [C124_off _ _ _ (by simp)]
  exact C121_refused _ _ _ _ _ _ _ _ _ (g := 3) (by decide) (by simp)

theorem keepNeighbors_hex {nodesOf : Nat → Outcome (List V3)} {x : Nat → V3} {h : Nat → ℝ}
    {owned : List Nat} {elem : Nat} {gids out : List Nat}
    (hk : keepNeighbors nodesOf x h owned elem gids = .ok out) :
    ∀ k ∈ gids, ∃ ps, nodesOf k = .ok ps ∧ ps.length = 8 := by
  induction gids generalizing out with
  | nil => simp
  | cons g gids ih =>
    rw [keepNeighbors] at hk
    obtain ⟨self, -, hk⟩ := Outcome.bind_eq_ok.mp hk
    obtain ⟨ps, hps, hk⟩ := Outcome.bind_eq_ok.mp hk
    by_cases hl : ps.length ≠ 8
    · rw [if_pos hl] at hk
      simp at hk
    · rw [if_neg hl] at hk
      obtain ⟨_, -, hk⟩ := Outcome.bind_eq_ok.mp hk
      obtain ⟨_, -, hk⟩ := Outcome.bind_eq_ok.mp hk
      obtain ⟨rest, hrest, -⟩ := Outcome.bind_eq_ok.mp hk
      intro k hkm
      rcases List.mem_cons.1 hkm with rfl | hkm
      · exact ⟨ps, hps, not_not.1 hl⟩
      · exact ih hrest k hkm

theorem refineLoop_hex {nodesOf : Nat → Outcome (List V3)} {x : Nat → V3} {h : Nat → ℝ}
    {nb : Nat → List Nat} {owned ov : List Nat} (lists : List (List Nat)) :
    ∀ (pre : List (List Nat)) (own : List Nat) (fuel elem : Nat) (out : List (List Nat)), lists.length ≤ fuel →
      List.Forall₂ (fun lids g => lids.map (fun l => ov[l]?) = (nb g).map some) lists own →
      refineLoop nodesOf x h ⟨owned, ov, encode (pre ++ lists)⟩ fuel (encode pre).length elem = .ok out →
      ∀ g ∈ own, ∀ k ∈ nb g, ∃ ps, nodesOf k = .ok ps ∧ ps.length = 8 := by
  induction lists with
  | nil =>
    intro pre own fuel elem out _ hf _
    cases hf
    simp
  | cons lids lists ih =>
    intro pre own fuel elem out hfuel hf hloop
    cases hf with
    | cons h1 h2 =>
      rename_i g own
      obtain ⟨fuel, rfl⟩ : ∃ f, fuel = f + 1 := ⟨fuel - 1, by rw [List.length_cons] at hfuel; omega⟩
      have hlist : encode (pre ++ lids :: lists) = encode pre ++ lids.length :: (lids ++ encode lists) := by
        rw [encode_append, encode_cons]
      rw [refineLoop] at hloop
      simp only at hloop
      rw [if_pos (by rw [hlist]; simp), hlist, readAt_mid _ _ _ _ rfl] at hloop
      simp only [Outcome.ok_bind] at hloop
      have hids : readIds (encode pre ++ lids.length :: (lids ++ encode lists)) ((encode pre).length + 1)
          lids.length = .ok lids := by
        have := readIds_mid (encode pre ++ [lids.length]) lids (encode lists) ((encode pre).length + 1)
          lids.length (by simp) rfl
        rwa [List.append_assoc, List.singleton_append] at this
      rw [hids] at hloop
      simp only [Outcome.ok_bind] at hloop
      rw [gidsOf_eq' h1] at hloop
      simp only [Outcome.ok_bind] at hloop
      obtain ⟨kept, hkept, hloop⟩ := Outcome.bind_eq_ok.mp hloop
      obtain ⟨rest, hrest, -⟩ := Outcome.bind_eq_ok.mp hloop
      have hpos : (encode (pre ++ [lids])).length = (encode pre).length + 1 + lids.length := by
        rw [encode_append]
        simp
        omega
      have hnext := ih (pre ++ [lids]) own fuel (elem + 1) rest (by rw [List.length_cons] at hfuel; omega) h2 (by
        rw [List.append_assoc, List.singleton_append, hpos, hlist]
        exact hrest)
      intro k hk
      rcases List.mem_cons.1 hk with rfl | hk
      · exact keepNeighbors_hex hkept
      · exact hnext k hk

/-- **C124** The lists of a processor are refined only if all neighbors are hexahedra with eight nodes; any other
element among them ends the program. -/
theorem C124_only_hexahedra {nodesOf : Nat → Outcome (List V3)} {x : Nat → V3} {h : Nat → ℝ} {nb : Nat → List Nat}
    {c r : NbPart} (hc : Holds nb c) (hr : removeNonintersecting nodesOf x h c = .ok r) :
    ∀ g ∈ c.owned, ∀ k ∈ nb g, ∃ ps, nodesOf k = .ok ps ∧ ps.length = 8 := by
  obtain ⟨lists, h1, h2⟩ := hc
  have hlen : lists.length ≤ c.list.length := by
    rw [h1, encode, List.length_flatMap]
    calc lists.length = (lists.map fun _ => 1).sum := by simp
      _ ≤ (lists.map fun ns => (ns.length :: ns).length).sum := by
        apply List.sum_le_sum
        intro l _
        simp
  rw [removeNonintersecting] at hr
  obtain ⟨out, hout, -⟩ := Outcome.bind_eq_ok.mp hr
  refine refineLoop_hex (nodesOf := nodesOf) (x := x) (h := h) (owned := c.owned) lists [] c.owned c.list.length 0 out
    hlen h2 ?_
  rw [List.nil_append, ← h1]
  exact hout

/-- Two neighboring tetrahedra with four nodes. -/
example : ∀ r, removeNonintersecting (fun _ => .ok [![0, 0, 0], ![1, 0, 0], ![0, 1, 0], ![0, 0, 1]]) (fun _ => ![0, 0, 0])
    (fun _ => 1) ⟨[0, 1], [0, 1], [1, 1, 1, 0]⟩ ≠ .ok r := by
  intro r hr
  obtain ⟨ps, h1, h2⟩ := C124_only_hexahedra (nb := fun g => [1 - g])
    ⟨[[1], [0]], rfl, by
      show List.Forall₂ _ [[1], [0]] [0, 1]
      simp⟩ hr 0 (by simp) 1 (by simp)
  injection h1 with h1
  subst h1
  simp at h2

end Verif.Mesh
