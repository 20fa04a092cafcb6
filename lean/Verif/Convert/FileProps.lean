import Verif.Convert.ReadLemmas

/-! C197: the points and blocks of a converted mesh. -/

noncomputable section

namespace Verif.Convert

open Verif Verif.Mech Verif.Neigh Verif.Mesh
open Verif.Exodus (maxStr)
open scoped Classical

/-- Three points with the numbers 3, 1 and 2 in the file, in two blocks, and two node sets. -/
def demo : Disc where
  ids := [2, 0, 1]
  points := [⟨3, 1, ![1 / 2, 1 / 2, 1 / 2]⟩, ⟨7, 4, ![5, 0, 0]⟩, ⟨7, 32, ![1, 0, 0]⟩]
  blocks := [("block_3", [2]), ("block_7", [0, 1])]
  sets := [("nodelist_1", [0, 2]), ("shared", [1, 2])]

theorem demo_sound : demo.Sound where
  nodup := by decide
  points := rfl
  divided := by decide
  blockNames := by decide
  blockNamed := by decide
  setNames := by decide
  setNamed := by decide
  setOnce := by decide
  setMembers := by decide

theorem demo_inRange : InRange demo := by
  unfold InRange
  decide

instance : IsTrans (String × List Nat) byName := ⟨fun _ _ _ => le_trans (α := String)⟩
instance : Std.Total byName := ⟨fun a b => le_total a.1 b.1⟩

theorem sort_strict {l : List (String × List Nat)} (h : (l.map Prod.fst).Nodup) :
    ((l.insertionSort byName).map Prod.fst).Pairwise (· < ·) := by
  have h1 := List.pairwise_insertionSort byName l
  have h2 : ((l.insertionSort byName).map Prod.fst).Nodup :=
    ((List.perm_insertionSort byName l).map Prod.fst).nodup_iff.2 h
  rw [List.pairwise_map]
  rw [List.Nodup, List.pairwise_map] at h2
  exact h1.imp₂ (fun a b h1 h2 => lt_of_le_of_ne h1 h2) h2

theorem map_eq_of_rel {α β γ : Type} {R : α → β → Prop} {f : α → γ} {k : β → γ} (hR : ∀ a b, R a b → k b = f a)
    {l : List α} {l' : List β} (h : List.Forall₂ R l l') : l'.map k = l.map f := by
  induction h with
  | nil => rfl
  | cons h _ ih => rw [List.map_cons, List.map_cons, hR _ _ h, ih]

theorem mem_of_rel {α β : Type} {R : α → β → Prop} {l : List α} {l' : List β} (h : List.Forall₂ R l l') {b : β}
    (hb : b ∈ l') : ∃ a ∈ l, R a b := by
  induction h with
  | nil => simp at hb
  | @cons x y l l' h _ ih =>
    rcases List.mem_cons.1 hb with rfl | hb
    · exact ⟨x, List.mem_cons_self, h⟩
    · obtain ⟨a, ha, h⟩ := ih hb
      exact ⟨a, List.mem_cons_of_mem _ ha, h⟩

theorem mem_of_rel' {α β : Type} {R : α → β → Prop} {l : List α} {l' : List β} (h : List.Forall₂ R l l') {a : α}
    (ha : a ∈ l) : ∃ b ∈ l', R a b := by
  induction h with
  | nil => simp at ha
  | @cons x y l l' h _ ih =>
    rcases List.mem_cons.1 ha with rfl | ha
    · exact ⟨y, List.mem_cons_self, h⟩
    · obtain ⟨a, ha, h⟩ := ih ha
      exact ⟨a, List.mem_cons_of_mem _ ha, h⟩

theorem blockTitle_ne (b : ElemBlock) : b.title ≠ "" := by
  rw [ElemBlock.title]
  split_ifs with h
  · intro h0
    have := congrArg String.toList h0
    simp at this
  · intro h0
    rw [h0] at h
    exact h rfl

theorem setTitle_ne (b : NodeSet) : b.title ≠ "" := by
  rw [NodeSet.title]
  split_ifs with h
  · intro h0
    have := congrArg String.toList h0
    simp at this
  · intro h0
    rw [h0] at h
    exact h rfl

/-- **C197** A consistent file, read by the converter, gives a discretization to which the theorems below apply. -/
theorem C197_sound {g : Genesis} {ids : List Nat} (h : WellFormed g ids)
    (he : chooseMap g.elemMap g.auxElemMaps = .ok ids) (hn : ∃ m, chooseMap g.nodeMap g.auxNodeMaps = .ok m)
    (hfit : ∀ b ∈ g.blocks, ∀ e < b.numElem, Fit g b e)
    (hs : ∀ s ∈ g.nodeSets, ∀ c ∈ s.nodes, 1 ≤ c ∧ c ≤ g.coords.length)
    (ht : (g.nodeSets.map NodeSet.title).Nodup) :
    ∃ d, readMesh g = .ok d ∧ d.Sound ∧ d.ids = ids := by
  obtain ⟨m, hm⟩ := hn
  obtain ⟨s, s1, s2, s3, s4, s5⟩ := C122_points h hfit
  obtain ⟨sets, t1, t2⟩ := C123_sets h hs ht
  have hbt : s.blocks.map Prod.fst = g.blocks.map ElemBlock.title := titles_eq s4
  have hst : sets.map Prod.fst = g.nodeSets.map NodeSet.title := map_eq_of_rel (fun _ _ h => h.1) t2
  have hmem : ∀ x ∈ sets.insertionSort byName, ∃ y ∈ g.nodeSets, x.1 = y.title ∧ x.2.Nodup ∧ ∀ gid ∈ x.2, gid ∈ ids := by
    intro x hx
    obtain ⟨y, hy, h1, h2, h3⟩ := mem_of_rel t2 ((List.mem_insertionSort byName).1 hx)
    refine ⟨y, hy, h1, h2, fun gid hg => ?_⟩
    obtain ⟨k, _, _, hk, _⟩ := (h3 gid).1 hg
    exact List.mem_of_getElem? hk
  refine ⟨⟨ids, s.points, s.blocks.insertionSort byName, sets.insertionSort byName⟩, ?_, ?_, rfl⟩
  · rw [readMesh, he]
    simp only [Outcome.ok_bind]
    rw [hm]
    simp only [Outcome.ok_bind]
    rw [s1]
    simp only [Outcome.ok_bind]
    rw [t1]
    rfl
  · refine ⟨h.nodup, s3, ?_, ?_, ?_, ?_, ?_, ?_, ?_⟩
    · show ((s.blocks.insertionSort byName).map Prod.snd).flatten.Perm ids
      rw [← s5]
      exact ((List.perm_insertionSort byName s.blocks).map Prod.snd).flatten
    · apply sort_strict
      rw [hbt]
      exact h.titles
    · intro b hb
      obtain ⟨y, -, h1⟩ := mem_of_rel s4 ((List.mem_insertionSort byName).1 hb)
      rw [h1.1]
      exact blockTitle_ne y
    · apply sort_strict
      rw [hst]
      exact ht
    · intro x hx
      obtain ⟨y, -, h1, -⟩ := hmem x hx
      rw [h1]
      exact setTitle_ne y
    · intro x hx
      exact (hmem x hx).choose_spec.2.2.1
    · intro x hx
      exact (hmem x hx).choose_spec.2.2.2

example : ∃ d, readMesh cubeAndBalls = .ok d ∧ d.Sound ∧ d.ids = [4, 0, 2] :=
  C197_sound cubeAndBalls_wellFormed rfl ⟨_, rfl⟩ cubeAndBalls_fit (by simp [cubeAndBalls]) (by decide)

/-- **C197** Reading the converted mesh gives the same points: the same ids, each in the same block, with its
volume, and with its position multiplied by the scale factor.  The id of a block is now the number in its name. -/
theorem C197_points {p : Params} {d : Disc} (h : d.Sound) (hclash : NoClash p d) (hrange : InRange d) {g : Genesis}
    (hc : convert p d = .ok g) :
    ∃ d', readMesh g = .ok d' ∧ d'.ids.Perm d.ids ∧ d'.points.length = d'.ids.length ∧ d'.blocks = d.blocks ∧
      ∀ gid pt, Holds d gid pt → ∃ name gs id, (name, gs) ∈ d.blocks ∧ gid ∈ gs ∧
        Params.blockNameToBlockId name.toList = .ok id ∧ Holds d' gid ⟨id, pt.volume, p.scale • pt.x⟩ := by
  obtain ⟨d', r1, r2, r3, r4, r5, -⟩ := convert_read h hclash hrange hc
  refine ⟨d', r1, ?_, r5, r3, ?_⟩
  · rw [r2]
    exact h.divided
  · intro gid pt hp
    obtain ⟨hg, rfl⟩ := (holds_iff h).1 hp
    obtain ⟨k, hk, hk2⟩ := List.getElem_of_mem ((mem_order h).2 hg)
    have hk3 : d.order[k]? = some gid := by rw [List.getElem?_eq_getElem hk, hk2]
    obtain ⟨b, id, b1, b2, b3, b4⟩ := r4 k gid hk3
    exact ⟨b.1, b.2, id, b1, b2, b3, k, by rw [r2]; exact hk3, b4⟩

theorem demo_ids : List.Forall₂ (fun (b : String × List Nat) (id : ℤ) =>
    Params.blockNameToBlockId b.1.toList = .ok id) demo.blocks [3, 7] :=
  .cons (by decide) (.cons (by decide) .nil)

theorem demo_converts (p : Params) : ∃ g, convert p demo = .ok g := by
  refine convert_defined demo_sound demo_ids (by decide) (by decide) (by decide) ?_
  intro s hs
  rcases List.mem_append.1 hs with hs | hs
  · exact (by decide : ∀ s ∈ demo.sets, s.1.utf8ByteSize ≤ maxStr) s hs
  · have : s.1 ∈ (layerSets p.layer (demo.points.map PointData.x)).map Prod.fst := List.mem_map_of_mem hs
    rw [layer_names] at this
    split_ifs at this
    · simp at this
    · revert this
      generalize s.1 = n
      revert n
      decide

/-- A scale factor of ten: the third point, with the number 2 in the file, is moved from 1 to 10. -/
example : ∃ g d', convert ⟨10, none⟩ demo = .ok g ∧ readMesh g = .ok d' ∧ d'.blocks = demo.blocks ∧
    ∃ id, Holds d' 1 ⟨id, 32, (10 : ℝ) • ![1, 0, 0]⟩ := by
  obtain ⟨g, hg⟩ := demo_converts ⟨10, none⟩
  obtain ⟨d', r1, -, -, r2, r3⟩ := C197_points demo_sound (fun h => absurd rfl h) demo_inRange hg
  obtain ⟨_, _, id, -, -, -, h⟩ := r3 1 ⟨7, 32, ![1, 0, 0]⟩ ⟨2, rfl, rfl⟩
  exact ⟨g, d', hg, r1, r2, id, h⟩

theorem cbrt_cubed (v : ℝ) : cbrt v ^ 3 = v := by
  have key : ∀ w : ℝ, 0 ≤ w → (w ^ (1 / 3 : ℝ)) ^ 3 = w := by
    intro w hw
    rw [← Real.rpow_natCast, ← Real.rpow_mul hw]
    norm_num
  rw [cbrt]
  split_ifs with h
  · exact key v h
  · rw [Odd.neg_pow (by decide), key (-v) (by linarith), neg_neg]

/-- **C197** In the file: the nodes are the points, in the order in which the converter has them, with the scaled
positions and the numbers of the points; every point is a sphere with the third root of its volume and its volume
as attributes; the elements have the numbers of the points, block by block. -/
theorem C197_file {p : Params} {d : Disc} (h : d.Sound) {g : Genesis} (hc : convert p d = .ok g) :
    g.coords.length = d.ids.length ∧ g.nodeMap = d.ids.map (· + 1) ∧
    g.elemMap = (d.blocks.flatMap Prod.snd).map (· + 1) ∧
    g.blocks.map ElemBlock.name = d.blocks.map Prod.fst ∧ (g.blocks.map ElemBlock.id).Nodup ∧
    ∀ (k : Nat) gid pt, d.ids[k]? = some gid → d.points[k]? = some pt →
      g.coords[k]? = some (p.scale • pt.x) ∧
      ∃ b ∈ g.blocks, ∃ (e : Nat) (r : ℝ), b.elemType = "SPHERE" ∧ b.nodesPerElem = 1 ∧ b.numAttr = 2 ∧
        b.conn[e]? = some (k + 1) ∧ b.attributes[2 * e]? = some r ∧ r ^ 3 = pt.volume ∧
        b.attributes[2 * e + 1]? = some pt.volume := by
  obtain ⟨ids, h1, h2, h3, h4, h5, rfl⟩ := convert_ok h hc
  have hn : (List.zipWith (record d) d.blocks ids).map ElemBlock.name = d.blocks.map Prod.fst ∧
      (List.zipWith (record d) d.blocks ids).map ElemBlock.id = ids := by
    clear h2 h3 h4 h5 hc
    generalize d.blocks = bs at h1
    induction h1 with
    | nil => exact ⟨rfl, rfl⟩
    | cons _ _ ih =>
      rw [List.zipWith_cons_cons, List.map_cons, List.map_cons, List.map_cons, ih.1, ih.2]
      exact ⟨rfl, rfl⟩
  refine ⟨?_, rfl, ?_, hn.1, ?_, ?_⟩
  · show (putCoords p.scale (d.points.map PointData.x)).length = _
    rw [putCoords, List.length_map, List.length_map, h.points]
  · rw [List.flatMap]
    rfl
  · show ((List.zipWith (record d) d.blocks ids).map ElemBlock.id).Nodup
    rw [hn.2]
    exact h2
  · intro k gid pt k1 k2
    have hg : gid ∈ d.ids := List.mem_of_getElem? k1
    obtain ⟨-, rfl⟩ := (holds_iff h).1 ⟨k, k1, k2⟩
    have hidx := h.idx k1
    refine ⟨?_, ?_⟩
    · show (putCoords p.scale (d.points.map PointData.x))[k]? = _
      rw [putCoords, List.map_map, List.getElem?_map, k2]
      rfl
    · have hel := elements_records d h1 fun _ hb => hb
      obtain ⟨t, ht, b, id, b1, b2, b3, b4⟩ := mem_of_rel hel ((mem_order h).2 hg)
      refine ⟨record d b id, ?_, t.2, cbrt (d.data gid).volume, rfl, rfl, rfl, ?_, ?_, cbrt_cubed _, ?_⟩
      · rw [elements, List.mem_flatMap] at ht
        obtain ⟨c, hc1, hc2⟩ := ht
        obtain ⟨e, -, rfl⟩ := List.mem_map.1 hc2
        rw [← b3]
        exact hc1
      · rw [← hidx]
        exact conn_get d b4
      · rw [Nat.mul_comm]
        exact (attrs_get d b4).1
      · rw [Nat.mul_comm]
        exact (attrs_get d b4).2

example : ∃ g, convert ⟨10, none⟩ demo = .ok g ∧ g.coords[2]? = some ((10 : ℝ) • ![1, 0, 0]) ∧ g.elemMap = [3, 1, 2] := by
  obtain ⟨g, hg⟩ := demo_converts ⟨10, none⟩
  obtain ⟨-, -, h3, -, -, h4⟩ := C197_file demo_sound hg
  exact ⟨g, hg, (h4 2 1 _ rfl rfl).1, h3⟩

/-! ### When there is a file -/

/-- **C197** A file is written if there is a block, the names are short, and the numbers in the names of the blocks
are different. -/
theorem C197_defined {p : Params} {d : Disc} (h : d.Sound) {ids : List ℤ}
    (h1 : List.Forall₂ (fun (b : String × List Nat) id => Params.blockNameToBlockId b.1.toList = .ok id) d.blocks ids)
    (h2 : ids.Nodup) (h3 : d.blocks ≠ []) (h4 : ∀ b ∈ d.blocks, b.1.utf8ByteSize ≤ 32)
    (h5 : ∀ s ∈ d.sets, s.1.utf8ByteSize ≤ 32) : ∃ g, convert p d = .ok g := by
  refine convert_defined h h1 h2 h3 h4 ?_
  intro s hs
  rcases List.mem_append.1 hs with hs | hs
  · exact h5 s hs
  · have : s.1 ∈ (layerSets p.layer (d.points.map PointData.x)).map Prod.fst := List.mem_map_of_mem hs
    rw [layer_names] at this
    split_ifs at this
    · simp at this
    · revert this
      generalize s.1 = n
      revert n
      decide

example : ∃ g, convert ⟨1, some (1 / 10)⟩ demo = .ok g :=
  C197_defined demo_sound demo_ids (by decide) (by decide) (by decide) (by decide)

/-- **C197** Two blocks whose names have the same number end the program, so does a mesh without blocks. -/
theorem C197_refused {p : Params} {d : Disc} {ids : List ℤ}
    (h1 : List.Forall₂ (fun (b : String × List Nat) id => Params.blockNameToBlockId b.1.toList = .ok id) d.blocks ids)
    (h2 : ¬ ids.Nodup ∨ d.blocks = []) (h5 : ∀ s ∈ d.sets, s.1.utf8ByteSize ≤ 32) :
    convert p d = .fail .terminate := by
  rw [convert, putNodeSets_defined]
  · simp only [Outcome.ok_bind]
    rcases h2 with h2 | h2
    · rw [declareBlocks_taken h1 List.nodup_nil (by simpa using h2)]
      rfl
    · rw [h2]
      rfl
  · intro s hs
    rcases List.mem_append.1 hs with hs | hs
    · exact h5 s hs
    · have : s.1 ∈ (layerSets p.layer (d.points.map PointData.x)).map Prod.fst := List.mem_map_of_mem hs
      rw [layer_names] at this
      split_ifs at this
      · simp at this
      · revert this
        generalize s.1 = n
        revert n
        decide

example : convert ⟨1, none⟩ ⟨[0, 1], [⟨1, 1, 0⟩, ⟨2, 1, 0⟩], [("left_1", [0]), ("right_1", [1])], []⟩ =
    .fail .terminate :=
  C197_refused (ids := [1, 1]) (.cons (by decide) (.cons (by decide) .nil)) (.inl (by decide)) (by decide)

theorem no_number {name : List Char} (h : ∀ c ∈ name, c ∉ ['G', 'R', 'A', 'I', 'N', '_']) :
    Params.blockNameToBlockId name = .fail .runtimeError := by
  have h1 : Params.findFirstOf ['G', 'R', 'A', 'I', 'N'] name = none := by
    unfold Params.findFirstOf
    rw [List.findIdx?_eq_none_iff]
    intro x hx
    have := h x hx
    simp only [List.mem_cons, List.not_mem_nil, or_false, not_or] at this ⊢
    simp [this]
  have h2 : Params.findLastOf ['_'] name = none := by
    unfold Params.findLastOf
    rw [Option.map_eq_none_iff, List.findIdx?_eq_none_iff]
    intro x hx
    have := h x (List.mem_reverse.1 hx)
    simp only [List.mem_cons, List.not_mem_nil, or_false, not_or] at this ⊢
    simp [this]
  rw [Params.blockNameToBlockId, h1, h2]

/-- **C197** A mesh with a block whose name has no underscore (and none of the capital letters of "GRAIN") cannot
be converted. -/
theorem C197_unnumbered {p : Params} {d : Disc} (h : d.Sound) {b : String × List Nat} (hb : b ∈ d.blocks)
    (hn : ∀ c ∈ b.1.toList, c ∉ ['G', 'R', 'A', 'I', 'N', '_']) : ∀ g, convert p d ≠ .ok g := by
  intro g hc
  obtain ⟨ids, h1, -⟩ := convert_ok h hc
  obtain ⟨id, -, hid⟩ := mem_of_rel' h1 hb
  rw [no_number hn] at hid
  cases hid

/-- The block "balls" of the mesh with a cube and two spheres. -/
example : ∃ d, readMesh cubeAndBalls = .ok d ∧ ∀ g, convert ⟨1, none⟩ d ≠ .ok g := by
  obtain ⟨d, h1, h2, h3⟩ := C197_sound cubeAndBalls_wellFormed rfl ⟨_, rfl⟩ cubeAndBalls_fit (by simp [cubeAndBalls])
    (by decide)
  refine ⟨d, h1, ?_⟩
  obtain ⟨s, s1, -, -, s2, -⟩ := C122_points cubeAndBalls_wellFormed cubeAndBalls_fit
  rw [readMesh, show chooseMap cubeAndBalls.elemMap cubeAndBalls.auxElemMaps = .ok [4, 0, 2] from rfl] at h1
  simp only [Outcome.ok_bind] at h1
  obtain ⟨m, -, h1⟩ := Outcome.bind_eq_ok.mp h1
  rw [s1] at h1
  simp only [Outcome.ok_bind] at h1
  obtain ⟨sets, -, h1⟩ := Outcome.bind_eq_ok.mp h1
  have hb : "balls" ∈ s.blocks.map Prod.fst := by
    rw [titles_eq s2]
    decide
  obtain ⟨b, hb, hbn⟩ := List.mem_map.1 hb
  refine C197_unnumbered h2 (b := b) ?_ ?_
  · rw [← Outcome.ok.inj h1]
    exact (List.mem_insertionSort byName).2 hb
  · rw [hbn]
    decide

/-! ### Scaling -/

/-- Multiplying the positions by a factor multiplies the volumes by its third power. -/
def VolumesScale : Prop :=
  ∀ (p : Params) (d : Disc) (g : Genesis) (d' : Disc), d.Sound → 0 < p.scale → NoClash p d → InRange d →
    convert p d = .ok g → readMesh g = .ok d' →
    ∀ gid pt pt', Holds d gid pt → Holds d' gid pt' → pt'.volume = p.scale ^ 3 * pt.volume

theorem holds_unique {d : Disc} (h : d.ids.Nodup) {gid : Nat} {p q : PointData} (hp : Holds d gid p)
    (hq : Holds d gid q) : p = q := by
  obtain ⟨k, k1, k2⟩ := hp
  obtain ⟨j, j1, j2⟩ := hq
  obtain ⟨hk, e1⟩ := List.getElem?_eq_some_iff.mp k1
  obtain ⟨hj, e2⟩ := List.getElem?_eq_some_iff.mp j1
  have : k = j := (h.getElem_inj_iff).1 (e1.trans e2.symm)
  subst this
  rw [k2] at j2
  exact Option.some.inj j2

/-- **C197 is false for scaled volumes**: the points are moved apart, their volumes stay. -/
theorem C197_scale_fails : ¬ VolumesScale := by
  intro H
  obtain ⟨g, hg⟩ := demo_converts ⟨10, none⟩
  obtain ⟨d', r1, -, -, r2, r3⟩ := C197_points demo_sound (fun h => absurd rfl h) demo_inRange hg
  obtain ⟨_, _, id, -, -, -, h⟩ := r3 1 ⟨7, 32, ![1, 0, 0]⟩ ⟨2, rfl, rfl⟩
  have := H ⟨10, none⟩ demo g d' demo_sound (by norm_num) (fun h => absurd rfl h) demo_inRange hg r1 1 _ _
    ⟨2, rfl, rfl⟩ h
  norm_num at this

/-- **C197, restricted to the scale factor 1** -/
theorem C197_scale_partial {p : Params} {d : Disc} (h : d.Sound) (hs : p.scale = 1) (hclash : NoClash p d)
    (hrange : InRange d) {g : Genesis} (hc : convert p d = .ok g) {d' : Disc} (hr : readMesh g = .ok d') {gid : Nat}
    {pt pt' : PointData} (h1 : Holds d gid pt) (h2 : Holds d' gid pt') :
    pt'.x = pt.x ∧ pt'.volume = p.scale ^ 3 * pt.volume := by
  obtain ⟨d'', r1, r2, -, -, r3⟩ := C197_points h hclash hrange hc
  rw [hr] at r1
  have r1 := Outcome.ok.inj r1
  subst r1
  obtain ⟨_, _, id, -, -, -, h3⟩ := r3 gid pt h1
  rw [holds_unique (r2.nodup_iff.2 h.nodup) h2 h3]
  simp [hs]

example : ∃ g d', convert ⟨1, none⟩ demo = .ok g ∧ readMesh g = .ok d' ∧
    ∀ pt', Holds d' 1 pt' → pt'.x = ![1, 0, 0] := by
  obtain ⟨g, hg⟩ := demo_converts ⟨1, none⟩
  obtain ⟨d', r1, -⟩ := C197_points demo_sound (fun h => absurd rfl h) demo_inRange hg
  exact ⟨g, d', hg, r1, fun pt' h => (C197_scale_partial demo_sound rfl (fun h => absurd rfl h) demo_inRange hg r1
    (pt := ⟨7, 32, ![1, 0, 0]⟩) ⟨2, rfl, rfl⟩ h).1⟩

end Verif.Convert
