import Verif.Mesh.SetLemmas
import Verif.Geometry.HexProps

/-! C122 and C123: elements of an Exodus file become points, and its node sets become sets of points. -/

noncomputable section

namespace Verif.Mesh

open Verif Verif.Mech Verif.Neigh Verif.Geometry
open scoped Classical

/-- A cube and two spheres. -/
def cubeAndBalls : Genesis where
  coords := [![0, 0, 0], ![1, 0, 0], ![1, 1, 0], ![0, 1, 0], ![0, 0, 1], ![1, 0, 1], ![1, 1, 1], ![0, 1, 1], ![5, 0, 0]]
  nodeMap := [1, 2, 3, 4, 5, 6, 7, 8, 9]
  elemMap := [5, 1, 3]
  auxNodeMaps := []
  auxElemMaps := []
  blocks := [⟨3, "", "hex8", 1, 8, [1, 2, 3, 4, 5, 6, 7, 8], 0, []⟩,
    ⟨7, "balls", "Sphere", 2, 1, [9, 2], 2, [1, 4, 2, 32]⟩]
  nodeSets := [⟨1, "", [9, 1]⟩, ⟨2, "shared", [2]⟩]

theorem cubeAndBalls_wellFormed : WellFormed cubeAndBalls [4, 0, 2] where
  nodup := by decide
  length := by simp [elements, cubeAndBalls]
  nodes := by
    intro b hb e he i hi
    simp only [cubeAndBalls, List.mem_cons, List.not_mem_nil, or_false] at hb
    rcases hb with rfl | rfl
    · have he : e < 1 := he
      have hi : i < 8 := hi
      obtain rfl : e = 0 := by omega
      interval_cases i
      all_goals exact ⟨_, ⟨by decide, rfl⟩, by simp [cubeAndBalls]⟩
    · have he : e < 2 := he
      have hi : i < 1 := hi
      obtain rfl : i = 0 := by omega
      interval_cases e
      all_goals exact ⟨_, ⟨by decide, rfl⟩, by simp [cubeAndBalls]⟩
  titles := by decide

theorem cubeAndBalls_fit : ∀ b ∈ cubeAndBalls.blocks, ∀ e < b.numElem, Fit cubeAndBalls b e := by
  intro b hb e he
  simp only [cubeAndBalls, List.mem_cons, List.not_mem_nil, or_false] at hb
  rcases hb with rfl | rfl
  · have he : e < 1 := he
    obtain rfl : e = 0 := by omega
    refine .inr (.inr ⟨by decide, le_refl 8, ?_⟩)
    have : (fun i : Fin 8 => corner cubeAndBalls
        ⟨3, "", "hex8", 1, 8, [1, 2, 3, 4, 5, 6, 7, 8], 0, []⟩ 0 i) =
        brick ![0, 0, 0] ![1, 0, 0] ![0, 1, 0] ![0, 0, 1] := by
      funext i
      fin_cases i <;> simp [corner, cubeAndBalls, brick]
    rw [this]
    apply brick_regular
    rw [det3_eq]
    unfold triple
    simp only [Matrix.cons_val_zero, Matrix.cons_val_one, Matrix.cons_val]
    norm_num
  · exact .inl ⟨by decide, le_refl 1, le_refl 2, rfl⟩

/-- **C122** Every element of a consistent file becomes exactly one point, in the order of the file: the `k`-th
point has the `k`-th id and stands for the `k`-th element.  The blocks divide the ids in the same order. -/
theorem C122_points {g : Genesis} {ids : List Nat} (h : WellFormed g ids)
    (hfit : ∀ b ∈ g.blocks, ∀ e < b.numElem, Fit g b e) :
    ∃ s, loadMesh g ids = .ok s ∧
      List.Forall₂ (fun (t : ElemBlock × Nat) p => Represents g t.1 t.2 p) (elements g.blocks) s.points ∧
      s.points.length = ids.length ∧
      List.Forall₂ (fun (b : ElemBlock) (e : String × List Nat) => e.1 = b.title ∧ e.2.length = b.numElem)
        g.blocks s.blocks ∧
      (s.blocks.map Prod.snd).flatten = ids := by
  obtain ⟨new, nb, e1, f1, f2, f3⟩ := loadBlocks_ok h.nodup g.blocks h.nodes hfit []
    (List.replicate ids.length ⟨0, 0, fun _ => 0⟩) [] (by simpa using h.titles)
    (by rw [List.length_replicate, h.length]) (by simp)
  refine ⟨_, e1, ?_, ?_, ?_, ?_⟩
  · rw [← h.length]
    simpa using f1
  · have := f1.length_eq
    simp [← h.length, ← this]
  · simpa using f2
  · rw [← h.length] at f3
    simpa using f3

example : ∃ s, loadMesh cubeAndBalls [4, 0, 2] = .ok s ∧ s.points.length = 3 ∧
    (s.blocks.map Prod.snd).flatten = [4, 0, 2] := by
  obtain ⟨s, h, _, h3, _, h5⟩ := C122_points cubeAndBalls_wellFormed cubeAndBalls_fit
  exact ⟨s, h, h3, h5⟩

/-- **C122** A name that a block has already ends the program. -/
theorem C122_duplicate {g : Genesis} {ids : List Nat} {pre post : List ElemBlock} {b : ElemBlock}
    (hb : g.blocks = pre ++ b :: post) (hn : ids.Nodup) (hl : (elements pre).length ≤ ids.length)
    (hnodes : ∀ b ∈ pre, ∀ e < b.numElem, ∀ i < b.nodesPerElem, ∃ c, HasNode b e i c ∧ c < g.coords.length)
    (hfit : ∀ b ∈ pre, ∀ e < b.numElem, Fit g b e) (ht : (pre.map ElemBlock.title).Nodup)
    (hdup : b.title ∈ pre.map ElemBlock.title) : loadMesh g ids = .fail .terminate := by
  obtain ⟨new, nb, e1, _, f2, _⟩ := loadBlocks_ok hn pre hnodes hfit []
    (List.replicate ids.length ⟨0, 0, fun _ => 0⟩) [] (by simpa using ht)
    (by rw [List.length_replicate]; exact hl) (by simp)
  have hm : nb.map Prod.fst = pre.map ElemBlock.title := titles_eq f2
  rw [loadMesh, hb]
  rw [List.nil_append, List.length_nil] at e1
  rw [foldlM_prefix e1, List.foldlM_cons, loadBlock, if_pos]
  · rfl
  · show b.title ∈ nb.map Prod.fst
    rw [hm]
    exact hdup

example : loadMesh { cubeAndBalls with blocks := cubeAndBalls.blocks ++ [⟨9, "block_3", "hex", 0, 8, [], 0, []⟩] }
    [4, 0, 2] = .fail .terminate :=
  C122_duplicate (pre := cubeAndBalls.blocks) (post := []) (b := ⟨9, "block_3", "hex", 0, 8, [], 0, []⟩) rfl
    cubeAndBalls_wellFormed.nodup (le_of_eq cubeAndBalls_wellFormed.length.symm) cubeAndBalls_wellFormed.nodes
    cubeAndBalls_fit cubeAndBalls_wellFormed.titles (by decide)

/-- **C122** Elements of any other type are refused. -/
theorem C122_unknown {g : Genesis} {ids : List Nat} {pre post : List ElemBlock} {b : ElemBlock}
    (hb : g.blocks = pre ++ b :: post) (hn : ids.Nodup) (hl : (elements pre).length ≤ ids.length)
    (hnodes : ∀ b ∈ pre, ∀ e < b.numElem, ∀ i < b.nodesPerElem, ∃ c, HasNode b e i c ∧ c < g.coords.length)
    (hfit : ∀ b ∈ pre, ∀ e < b.numElem, Fit g b e) (ht : ((pre ++ [b]).map ElemBlock.title).Nodup)
    (h0 : b.numElem ≠ 0)
    (hk : upper b.elemType ∉ ["SPHERE", "TET", "TETRA", "TET4", "TET10", "HEX", "HEX8", "HEX20"]) :
    loadMesh g ids = .fail .runtimeError := by
  rw [List.map_append, List.nodup_append] at ht
  obtain ⟨new, nb, e1, _, f2, _⟩ := loadBlocks_ok hn pre hnodes hfit []
    (List.replicate ids.length ⟨0, 0, fun _ => 0⟩) [] (by simpa using ht.1)
    (by rw [List.length_replicate]; exact hl) (by simp)
  have hm : nb.map Prod.fst = pre.map ElemBlock.title := titles_eq f2
  have hkind : elementKind b.elemType = .fail .runtimeError := by
    simp only [List.mem_cons, List.not_mem_nil, or_false, not_or] at hk
    obtain ⟨k1, k2, k3, k4, k5, k6, k7, k8⟩ := hk
    rw [elementKind, if_neg k1, if_neg (by simp [k2, k3, k4, k5]), if_neg (by simp [k6, k7, k8])]
  rw [loadMesh, hb]
  rw [List.nil_append, List.length_nil] at e1
  rw [foldlM_prefix e1, List.foldlM_cons, loadBlock, if_neg, if_neg h0, hkind]
  · rfl
  · show b.title ∉ nb.map Prod.fst
    rw [hm]
    intro hc
    exact ht.2.2 _ hc _ (by simp) rfl

example : loadMesh { cubeAndBalls with blocks := cubeAndBalls.blocks ++ [⟨9, "wedges", "wedge6", 4, 6, [], 0, []⟩] }
    [4, 0, 2] = .fail .runtimeError :=
  C122_unknown (pre := cubeAndBalls.blocks) (post := []) (b := ⟨9, "wedges", "wedge6", 4, 6, [], 0, []⟩) rfl
    cubeAndBalls_wellFormed.nodup (le_of_eq cubeAndBalls_wellFormed.length.symm) cubeAndBalls_wellFormed.nodes
    cubeAndBalls_fit (by decide) (by decide) (by decide)

/-- **C122** The ids of the points are the numbers of the file, or those of its map "original_global_id_map",
counted from zero; a file with another map or with several is refused. -/
theorem C122_ids (map : List Nat) (hpos : ∀ k ∈ map, 1 ≤ k) :
    (∃ ids, chooseMap map [] = .ok ids ∧ ids.map (· + 1) = map) ∧
    (∀ other, ∃ ids, chooseMap other [("original_global_id_map", map)] = .ok ids ∧ ids.map (· + 1) = map) ∧
    (∀ name other, name ≠ "original_global_id_map" → chooseMap map [(name, other)] = .fail .terminate) ∧
    (∀ aux, 2 ≤ aux.length → chooseMap map aux = .fail .terminate) := by
  have hm : (map.map (· - 1)).map (· + 1) = map := by
    rw [List.map_map]
    conv_rhs => rw [← List.map_id map]
    apply List.map_congr_left
    intro k hk
    have := hpos k hk
    simp only [Function.comp, id]
    omega
  refine ⟨⟨_, rfl, hm⟩, fun other => ⟨map.map (· - 1), ?_, hm⟩, ?_, ?_⟩
  · rw [chooseMap, if_neg (by simp)]
  · intro name other hne
    rw [chooseMap, if_pos hne]
  · intro aux h
    match aux with
    | [] => simp at h
    | [_] => simp at h
    | _ :: _ :: _ => rfl

example : ∃ ids, chooseMap [5, 1, 3] [] = .ok ids ∧ ids.map (· + 1) = [5, 1, 3] :=
  (C122_ids [5, 1, 3] (by decide)).1

/-! ### Spheres with one attribute -/

/-- The last element of a block of spheres with one attribute. -/
theorem radius_only_loop {g : Genesis} {ids : List Nat} (hn : ids.Nodup) {b : ElemBlock}
    (hnodes : ∀ e < b.numElem, ∀ i < b.nodesPerElem, ∃ c, HasNode b e i c ∧ c < g.coords.length)
    (hp : 1 ≤ b.nodesPerElem) (h1 : b.numAttr = 1) (ha : b.attributes.length = b.numElem) (m : Nat) :
    ∀ (iElem : Nat) (next : Nat) (points : List PointData), iElem + (m + 1) = b.numElem →
      next + (m + 1) ≤ ids.length → points.length = ids.length →
      loadElements g ids .sphere b (m + 1) iElem next points = .ub := by
  induction m with
  | zero =>
    intro iElem next points hi hk hl
    obtain ⟨c, hc⟩ := Nat.exists_eq_add_of_le hp
    rw [loadElements, loadElement, nodePositions_eq (hnodes iElem (by omega)) b.nodesPerElem 0 (by omega)]
    simp only [Outcome.ok_bind]
    rw [readAt_eq_ok.2 (List.getElem?_eq_getElem (by omega : next < ids.length))]
    simp only [Outcome.ok_bind]
    rw [toPoint, hc, Nat.add_comm 1 c, List.range'_succ, List.map_cons,
      show readAt (corner g b iElem 0 :: (List.range' (0 + 1) c).map (corner g b iElem)) 0 =
        .ok (corner g b iElem 0) from rfl]
    simp only [Outcome.ok_bind]
    rw [readAt_short (by rw [h1, ha]; omega)]
    rfl
  | succ m ih =>
    intro iElem next points hi hk hl
    obtain ⟨c, hc⟩ := Nat.exists_eq_add_of_le hp
    have hget : ids[next]? = some ids[next] := List.getElem?_eq_getElem (by omega)
    have hlt : iElem * b.numAttr + 1 < b.attributes.length := by rw [h1, ha]; omega
    have hat : b.attributes[iElem * b.numAttr + 1]? = some b.attributes[iElem * b.numAttr + 1] :=
      List.getElem?_eq_getElem hlt
    have hload : loadElement g ids .sphere b iElem next points = .ok (ids[next],
        points.set next ⟨b.id, b.attributes[iElem * b.numAttr + 1],
          corner g b iElem 0⟩) := by
      rw [loadElement, nodePositions_eq (hnodes iElem (by omega)) b.nodesPerElem 0 (by omega)]
      simp only [Outcome.ok_bind]
      rw [readAt_eq_ok.2 hget]
      simp only [Outcome.ok_bind]
      rw [toPoint, hc, Nat.add_comm 1 c, List.range'_succ, List.map_cons,
        show readAt (corner g b iElem 0 :: (List.range' (0 + 1) c).map (corner g b iElem)) 0 =
          .ok (corner g b iElem 0) from rfl]
      simp only [Outcome.ok_bind]
      rw [readAt_eq_ok.2 hat]
      simp only [Outcome.ok_bind]
      rw [lid_self hn hget]
      simp only [Outcome.ok_bind]
      rw [if_pos (by omega)]
    rw [loadElements, hload]
    simp only [Outcome.ok_bind]
    rw [ih (iElem + 1) (next + 1) _ (by omega) (by omega) (by rw [List.length_set]; exact hl)]
    rfl

/-- **C122, refuted for spheres with one attribute** The number of attributes is not checked: reading a block of
spheres that have one attribute each (the radius) is undefined, as the second of the last sphere is read. -/
theorem C122_broken {g : Genesis} {ids : List Nat} {b : ElemBlock} (hb : g.blocks = [b])
    (h : WellFormed g ids) (hk : upper b.elemType = "SPHERE") (h0 : b.numElem ≠ 0) (hp : 1 ≤ b.nodesPerElem)
    (h1 : b.numAttr = 1) (ha : b.attributes.length = b.numElem) : loadMesh g ids = .ub := by
  obtain ⟨m, hm⟩ := Nat.exists_eq_succ_of_ne_zero h0
  have hlen : ids.length = b.numElem := by
    rw [h.length, hb]
    simp [elements]
  rw [loadMesh, hb, List.foldlM_cons, loadBlock, if_neg (by simp), if_neg h0, elementKind, if_pos hk]
  simp only [Outcome.ok_bind]
  have := radius_only_loop h.nodup (h.nodes b (by rw [hb]; exact List.mem_cons_self)) hp h1 ha m 0 0
    (List.replicate ids.length ⟨0, 0, fun _ => 0⟩) (by omega) (by omega) (by simp)
  rw [hm, this]
  rfl

example : ∃ g : Genesis, loadMesh g [0, 1] = .ub := by
  refine ⟨⟨[![0, 0, 0], ![1, 0, 0]], [1, 2], [1, 2], [], [], [⟨1, "", "SPHERE", 2, 1, [1, 2], 1, [1, 1]⟩], []⟩, ?_⟩
  refine C122_broken rfl ⟨by decide, by simp [elements], ?_, by decide⟩ (by decide) (by decide) (le_refl 1) rfl rfl
  intro b hb e he i hi
  simp only [List.mem_cons, List.not_mem_nil, or_false] at hb
  subst hb
  have he : e < 2 := he
  have hi : i < 1 := hi
  obtain rfl : i = 0 := by omega
  interval_cases e
  all_goals exact ⟨_, ⟨by decide, rfl⟩, by simp⟩

/-! ### Node sets -/

/-- **C123** A node set of the file becomes the set of those points whose elements have a node in it, each
listed once; it keeps its name. -/
theorem C123_sets {g : Genesis} {ids : List Nat} (h : WellFormed g ids)
    (hs : ∀ s ∈ g.nodeSets, ∀ c ∈ s.nodes, 1 ≤ c ∧ c ≤ g.coords.length)
    (ht : (g.nodeSets.map NodeSet.title).Nodup) :
    ∃ sets, loadNodeSets g ids = .ok sets ∧
      List.Forall₂ (fun (s : NodeSet) (out : String × List Nat) => out.1 = s.title ∧ out.2.Nodup ∧
        ∀ gid, gid ∈ out.2 ↔ ∃ (k : Nat) (b : ElemBlock) (e : Nat), ids[k]? = some gid ∧ (elements g.blocks)[k]? = some (b, e) ∧
          ∃ j c, HasNode b e j c ∧ c + 1 ∈ s.nodes) g.nodeSets sets := by
  obtain ⟨lists, a1, a2, a3⟩ := addBlocks_ok g.blocks h.nodes 0 (List.replicate g.coords.length [])
    (List.length_replicate ..)
  have hAt : ∀ c e, At lists c e ↔ ∃ b i, (elements g.blocks)[e]? = some (b, i) ∧ ∃ j, HasNode b i j c := by
    intro c e
    rw [a3]
    constructor
    · rintro (⟨l, h1, h2⟩ | ⟨k, b, i, h1, h2, h3⟩)
      · obtain ⟨_, h3⟩ := List.getElem?_eq_some_iff.mp h1
        rw [List.getElem_replicate] at h3
        subst h3
        simp at h2
      · obtain rfl : e = k := by omega
        exact ⟨b, i, h2, h3⟩
    · rintro ⟨b, i, h2, h3⟩
      exact .inr ⟨e, b, i, by omega, h2, h3⟩
  have hlt : ∀ c e, At lists c e → e < ids.length := by
    intro c e he
    obtain ⟨b, i, h1, _⟩ := (hAt c e).mp he
    rw [h.length]
    exact (List.getElem?_eq_some_iff.mp h1).1
  have key : ∀ ss : List NodeSet, (∀ s ∈ ss, ∀ c ∈ s.nodes, 1 ≤ c ∧ c ≤ g.coords.length) →
      ∃ sets, convertSets ids lists ss = .ok sets ∧
        List.Forall₂ (fun (s : NodeSet) (out : String × List Nat) => out.1 = s.title ∧ out.2.Nodup ∧
          ∀ gid, gid ∈ out.2 ↔ ∃ (k : Nat) (b : ElemBlock) (e : Nat), ids[k]? = some gid ∧ (elements g.blocks)[k]? = some (b, e) ∧
            ∃ j c, HasNode b e j c ∧ c + 1 ∈ s.nodes) ss sets := by
    intro ss hss
    induction ss with
    | nil => exact ⟨[], rfl, .nil⟩
    | cons s ss ih =>
      obtain ⟨rest, r1, r2⟩ := ih fun x hx => hss x (List.mem_cons_of_mem _ hx)
      obtain ⟨set, s1, s2, s3⟩ := convertSet_ok ids lists hlt s.nodes
        (by rw [a2]; exact hss s List.mem_cons_self) [] List.nodup_nil
      refine ⟨(s.title, set) :: rest, ?_, .cons ⟨rfl, s2, ?_⟩ r2⟩
      · rw [convertSets, s1]
        simp only [Outcome.ok_bind]
        rw [r1]
        rfl
      · intro gid
        rw [s3]
        constructor
        · rintro (h | ⟨c, e, h1, h2, h3⟩)
          · simp at h
          · obtain ⟨b, i, h4, j, h5⟩ := (hAt c e).mp h2
            exact ⟨e, b, i, h3, h4, j, c, h5, h1⟩
        · rintro ⟨k, b, i, h3, h4, j, c, h5, h1⟩
          exact .inr ⟨c, k, h1, (hAt c k).mpr ⟨b, i, h4, j, h5⟩, h3⟩
  obtain ⟨sets, k1, k2⟩ := key g.nodeSets hs
  refine ⟨sets, ?_, k2⟩
  rw [loadNodeSets, a1]
  simp only [Outcome.ok_bind]
  rw [checkTitles_ok g.nodeSets [] ht]
  simp only [Outcome.ok_bind]
  exact k1

/-- In the example the set "shared" holds the cube (id 4) and the second sphere (id 2), which is at a corner of
the cube. -/
example : ∃ sets, loadNodeSets cubeAndBalls [4, 0, 2] = .ok sets ∧
    ∃ a b : List Nat, sets = [("nodelist_1", a), ("shared", b)] ∧ 4 ∈ b ∧ 2 ∈ b ∧ 0 ∉ b := by
  obtain ⟨sets, h1, h2⟩ := C123_sets cubeAndBalls_wellFormed
    (by simp [cubeAndBalls]) (by decide)
  refine ⟨sets, h1, ?_⟩
  rw [show cubeAndBalls.nodeSets = [⟨1, "", [9, 1]⟩, ⟨2, "shared", [2]⟩] from rfl] at h2
  cases h2 with
  | cons e1 h2 =>
    cases h2 with
    | cons e2 h2 =>
      cases h2
      rename_i o1 o2
      refine ⟨o1.2, o2.2, ?_, ?_, ?_, ?_⟩
      · rw [← show o1.1 = "nodelist_1" from e1.1.trans (by decide), ← show o2.1 = "shared" from e2.1.trans (by decide)]
      · exact (e2.2.2 4).mpr ⟨0, _, _, rfl, rfl, 1, 1, ⟨by decide, rfl⟩, by simp⟩
      · exact (e2.2.2 2).mpr ⟨2, _, _, rfl, rfl, 0, 1, ⟨by decide, rfl⟩, by simp⟩
      · intro hm
        obtain ⟨k, b, e, k1, k2, j, c, k3, k4⟩ := (e2.2.2 0).mp hm
        obtain rfl : c = 1 := by simpa using k4
        have hk : k = 1 := by
          rcases k with _ | _ | _ | k <;> simp at k1 ⊢
        subst hk
        simp only [elements, cubeAndBalls, List.flatMap_cons, List.flatMap_nil] at k2
        have k2 : some (⟨7, "balls", "Sphere", 2, 1, [9, 2], 2, [1, 4, 2, 32]⟩, 0) = some (b, e) := k2
        injection k2 with k2
        injection k2 with k2 k5
        subst k2 k5
        obtain ⟨k6, k7⟩ := k3
        have k6 : j < 1 := k6
        obtain rfl : j = 0 := by omega
        simp at k7

/-- **C123** A name that occurs twice ends the program. -/
theorem C123_duplicate {g : Genesis} {ids : List Nat} (h : WellFormed g ids)
    (ht : ¬ (g.nodeSets.map NodeSet.title).Nodup) : loadNodeSets g ids = .fail .terminate := by
  obtain ⟨lists, a1, -, -⟩ := addBlocks_ok g.blocks h.nodes 0 (List.replicate g.coords.length [])
    (List.length_replicate ..)
  rw [loadNodeSets, a1]
  simp only [Outcome.ok_bind]
  rw [checkTitles_fail g.nodeSets [] List.nodup_nil ht]
  rfl

example : loadNodeSets { cubeAndBalls with nodeSets := [⟨1, "", []⟩, ⟨2, "nodelist_1", [1]⟩] } [4, 0, 2] =
    .fail .terminate :=
  C123_duplicate ⟨cubeAndBalls_wellFormed.nodup, cubeAndBalls_wellFormed.length, cubeAndBalls_wellFormed.nodes,
    cubeAndBalls_wellFormed.titles⟩ (by decide)

end Verif.Mesh
