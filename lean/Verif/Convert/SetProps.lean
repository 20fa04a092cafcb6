import Verif.Convert.FileProps

/-! C198 and C199: the node sets and boundary layers of a converted mesh. -/

noncomputable section

namespace Verif.Convert

open Verif Verif.Mech Verif.Neigh Verif.Mesh
open scoped Classical

theorem sets_of_read {p : Params} {d : Disc} {d' : Disc} {out : List (String × List Nat)}
    (h1 : List.Forall₂ (fun (s o : String × List Nat) => o.1 = s.1 ∧ o.2.Nodup ∧
        ∀ gid, gid ∈ o.2 ↔ ∃ c ∈ s.2, d.ids[c]? = some gid)
          (d.sets ++ layerSets p.layer (d.points.map PointData.x)) out) (h2 : d'.sets = out.insertionSort byName)
    {s : String × List Nat} (hs : s ∈ d.sets ++ layerSets p.layer (d.points.map PointData.x)) :
    ∃ s', (s.1, s') ∈ d'.sets ∧ s'.Nodup ∧ ∀ gid, gid ∈ s' ↔ ∃ c ∈ s.2, d.ids[c]? = some gid := by
  obtain ⟨o, o1, o2, o3, o4⟩ := mem_of_rel' h1 hs
  refine ⟨o.2, ?_, o3, o4⟩
  rw [h2, ← o2]
  exact (List.mem_insertionSort byName).2 o1

/-- **C198** The converted mesh has the node sets of the mesh under their names, after them (if asked for) the
boundary layers, and no others.  A set of the converted mesh holds the points at the places in the file that
the ids in the set name. -/
theorem C198_members {p : Params} {d : Disc} (h : d.Sound) (hclash : NoClash p d) (hrange : InRange d) {g : Genesis}
    (hc : convert p d = .ok g) :
    g.nodeSets.map NodeSet.name = d.sets.map Prod.fst ++ (if p.layer = none then [] else layerNames) ∧
    ∃ d', readMesh g = .ok d' ∧ (d'.sets.map Prod.fst).Pairwise (· < ·) ∧
      (d'.sets.map Prod.fst).Perm (g.nodeSets.map NodeSet.name) ∧
      ∀ name s, (name, s) ∈ d.sets → ∃ s', (name, s') ∈ d'.sets ∧ s'.Nodup ∧
        ∀ gid, gid ∈ s' ↔ ∃ c ∈ s, d.ids[c]? = some gid := by
  have hnames : g.nodeSets.map NodeSet.name = d.sets.map Prod.fst ++ (if p.layer = none then [] else layerNames) := by
    obtain ⟨ids, -, -, -, -, -, rfl⟩ := convert_ok h hc
    rw [← layer_names p.layer (d.points.map PointData.x), ← List.map_append]
    exact map_eq_of_rel (fun _ _ h => h.1) (setRecords_eq _)
  refine ⟨hnames, ?_⟩
  obtain ⟨d', r1, -, -, -, -, out, o1, o2⟩ := convert_read h hclash hrange hc
  have hout : out.map Prod.fst = g.nodeSets.map NodeSet.name := by
    rw [hnames, ← layer_names p.layer (d.points.map PointData.x), ← List.map_append]
    exact map_eq_of_rel (fun _ _ h => h.1) o1
  have hnd : (out.map Prod.fst).Nodup := by
    rw [hout, hnames]
    by_cases hl : p.layer = none
    · rw [if_pos hl, List.append_nil]
      exact h.setNames.imp fun h => ne_of_lt h
    · rw [if_neg hl]
      refine List.nodup_append.2 ⟨h.setNames.imp fun h => ne_of_lt h, by decide, ?_⟩
      intro a ha b hb hab
      subst hab
      obtain ⟨s, hs, rfl⟩ := List.mem_map.1 ha
      exact hclash hl s hs hb
  refine ⟨d', r1, ?_, ?_, ?_⟩
  · rw [o2]
    exact sort_strict hnd
  · rw [o2, ← hout]
    exact (List.perm_insertionSort byName out).map Prod.fst
  · intro name s hs
    exact sets_of_read o1 o2 (s := (name, s)) (List.mem_append_left _ hs)

/-- The set "shared" of the example, which holds the points 1 and 2, holds 0 and 1 after the conversion. -/
example : ∃ g d', convert ⟨1, none⟩ demo = .ok g ∧ readMesh g = .ok d' ∧
    ∃ s', ("shared", s') ∈ d'.sets ∧ 0 ∈ s' ∧ 1 ∈ s' ∧ 2 ∉ s' := by
  obtain ⟨g, hg⟩ := demo_converts ⟨1, none⟩
  obtain ⟨-, d', r1, -, -, r2⟩ := C198_members demo_sound (fun h => absurd rfl h) demo_inRange hg
  obtain ⟨s', s1, -, s2⟩ := r2 "shared" [1, 2] (by decide)
  refine ⟨g, d', hg, r1, s', s1, (s2 0).2 ⟨1, by simp, rfl⟩, (s2 1).2 ⟨2, by simp, rfl⟩, ?_⟩
  intro hm
  obtain ⟨c, hc, hc2⟩ := (s2 2).1 hm
  simp only [List.mem_cons, List.not_mem_nil, or_false] at hc
  rcases hc with rfl | rfl
  · cases hc2
  · cases hc2

/-- The node sets of the converted mesh are those of the mesh. -/
def SetsKept : Prop :=
  ∀ (p : Params) (d : Disc) (g : Genesis), d.Sound → NoClash p d → convert p d = .ok g →
    ∃ d', readMesh g = .ok d' ∧ ∀ name s, (name, s) ∈ d.sets →
      ∃ s', (name, s') ∈ d'.sets ∧ s'.Nodup ∧ ∀ gid, gid ∈ s' ↔ gid ∈ s

/-- **C198 is false of the code**: a node set is written with the ids of its points where the file wants their
places, so with an element number map it becomes another set. -/
theorem C198_fails : ¬ SetsKept := by
  intro H
  obtain ⟨g, hg⟩ := demo_converts ⟨1, none⟩
  obtain ⟨-, d', r1, r3, -, r2⟩ := C198_members demo_sound (fun h => absurd rfl h) demo_inRange hg
  obtain ⟨d'', q1, q2⟩ := H ⟨1, none⟩ demo g demo_sound (fun h => absurd rfl h) hg
  rw [r1] at q1
  have q1 := Outcome.ok.inj q1
  subst q1
  obtain ⟨s', s1, -, s2⟩ := r2 "shared" [1, 2] (by decide)
  obtain ⟨t', t1, -, t2⟩ := q2 "shared" [1, 2] (by decide)
  have : s' = t' := by
    have hnd : (d'.sets.map Prod.fst).Nodup := r3.imp fun h => ne_of_lt h
    obtain ⟨i, hi, e1⟩ := List.getElem_of_mem s1
    obtain ⟨j, hj, e2⟩ := List.getElem_of_mem t1
    have : i = j := by
      refine (hnd.getElem_inj_iff (hi := by simpa using hi) (hj := by simpa using hj)).1 ?_
      rw [List.getElem_map, List.getElem_map, e1, e2]
    subst this
    rw [e1] at e2
    exact (Prod.mk.inj e2).2
  subst this
  have := (t2 0).1 ((s2 0).2 ⟨1, by simp, rfl⟩)
  simp at this

/-- **C198, restricted to meshes whose elements are numbered in the order of the file** The converted mesh has the
same node sets. -/
theorem C198_sets_partial {p : Params} {d : Disc} (h : d.Sound) (hids : d.ids = List.range d.ids.length)
    (hclash : NoClash p d) {g : Genesis} (hc : convert p d = .ok g) :
    ∃ d', readMesh g = .ok d' ∧ ∀ name s, (name, s) ∈ d.sets →
      ∃ s', (name, s') ∈ d'.sets ∧ s'.Nodup ∧ ∀ gid, gid ∈ s' ↔ gid ∈ s := by
  have hmem : ∀ x, x ∈ d.ids → x < d.ids.length := by
    intro x hx
    rw [hids] at hx
    exact List.mem_range.1 hx
  have hr : InRange d := fun s hs gid hg => hmem _ (h.setMembers s hs gid hg)
  obtain ⟨-, d', r1, -, -, r2⟩ := C198_members h hclash hr hc
  refine ⟨d', r1, fun name s hs => ?_⟩
  obtain ⟨s', s1, s2, s3⟩ := r2 name s hs
  refine ⟨s', s1, s2, fun gid => ?_⟩
  have hget : ∀ c, c < d.ids.length → d.ids[c]? = some c := by
    intro c hc
    rw [hids, List.getElem?_range hc]
  rw [s3]
  constructor
  · rintro ⟨c, c1, c2⟩
    rw [hget c (hr _ hs c c1)] at c2
    rwa [← Option.some.inj c2]
  · intro hg
    exact ⟨gid, hg, hget gid (hr _ hs gid hg)⟩

/-- The same mesh, numbered in order. -/
def ordered : Disc where
  ids := [0, 1, 2]
  points := [⟨3, 1, ![1 / 2, 1 / 2, 1 / 2]⟩, ⟨7, 4, ![5, 0, 0]⟩, ⟨7, 32, ![1, 0, 0]⟩]
  blocks := [("block_3", [0]), ("block_7", [1, 2])]
  sets := [("shared", [0, 2])]

theorem ordered_sound : ordered.Sound where
  nodup := by decide
  points := rfl
  divided := by decide
  blockNames := by decide
  blockNamed := by decide
  setNames := by decide
  setNamed := by decide
  setOnce := by decide
  setMembers := by decide

example : ∃ g d', convert ⟨1, some 1⟩ ordered = .ok g ∧ readMesh g = .ok d' ∧
    ∃ s', ("shared", s') ∈ d'.sets ∧ ∀ gid, gid ∈ s' ↔ gid ∈ [0, 2] := by
  obtain ⟨g, hg⟩ := C197_defined (p := ⟨1, some 1⟩) ordered_sound (ids := [3, 7])
    (.cons (by decide) (.cons (by decide) .nil)) (by decide) (by decide) (by decide) (by decide)
  obtain ⟨d', h1, h2⟩ := C198_sets_partial ordered_sound rfl (by unfold NoClash; decide) hg
  obtain ⟨s', h3, -, h4⟩ := h2 "shared" [0, 2] (by decide)
  exact ⟨g, d', hg, h1, s', h3, h4⟩

/-! ### Ids beyond the number of points -/

theorem convertSet_ub (ids : List Nat) (lists : List (List Nat)) (hl : ∀ c e, At lists c e → e < ids.length)
    (nodes : List Nat) (hp : ∀ c ∈ nodes, 1 ≤ c) (hn : ∃ c ∈ nodes, lists.length < c) :
    ∀ set : List Nat, set.Nodup → convertSet ids lists nodes set = .ub := by
  induction nodes with
  | nil => simp at hn
  | cons c nodes ih =>
    intro set hs
    have hc := hp c List.mem_cons_self
    rcases c with _ | c
    · omega
    rw [convertSet]
    by_cases hlt : c < lists.length
    · have hget : lists[c]? = some lists[c] := List.getElem?_eq_getElem hlt
      obtain ⟨mid, a1, a2, a3⟩ := insertElements_ok ids lists[c] (fun e he => hl c e ⟨_, hget, he⟩) set hs
      rw [readAt_eq_ok.2 hget]
      simp only [Outcome.ok_bind]
      rw [a1]
      simp only [Outcome.ok_bind]
      apply ih (fun x hx => hp x (List.mem_cons_of_mem _ hx)) _ mid a2
      obtain ⟨x, hx, hx2⟩ := hn
      rcases List.mem_cons.1 hx with rfl | hx
      · omega
      · exact ⟨x, hx, hx2⟩
    · rw [readAt, List.getElem?_eq_none (by omega)]
      rfl

theorem convertSets_ub (ids : List Nat) (lists : List (List Nat)) (hl : ∀ c e, At lists c e → e < ids.length)
    (ss : List NodeSet) (hp : ∀ s ∈ ss, ∀ c ∈ s.nodes, 1 ≤ c) (hn : ∃ s ∈ ss, ∃ c ∈ s.nodes, lists.length < c) :
    convertSets ids lists ss = .ub := by
  induction ss with
  | nil => simp at hn
  | cons s ss ih =>
    rw [convertSets]
    by_cases hb : ∃ c ∈ s.nodes, lists.length < c
    · rw [convertSet_ub ids lists hl s.nodes (hp s List.mem_cons_self) hb [] List.nodup_nil]
      rfl
    · obtain ⟨set, s1, -⟩ := convertSet_ok ids lists hl s.nodes (fun c hc => ⟨hp s List.mem_cons_self c hc, by
        by_contra h
        exact hb ⟨c, hc, by omega⟩⟩) [] List.nodup_nil
      rw [s1]
      simp only [Outcome.ok_bind]
      rw [ih (fun x hx => hp x (List.mem_cons_of_mem _ hx))]
      · rfl
      · obtain ⟨x, hx, hx2⟩ := hn
        rcases List.mem_cons.1 hx with rfl | hx
        · exact absurd hx2 hb
        · exact ⟨x, hx, hx2⟩

/-- **C198, refuted further** If a node set holds a point whose id is not smaller than the number of points, the
converted mesh is written with a node that does not exist, and reading it is undefined. -/
theorem C198_undefined {p : Params} {d : Disc} (h : d.Sound) (hclash : NoClash p d) (hrange : ¬ InRange d)
    {g : Genesis} (hc : convert p d = .ok g) : readMesh g = .ub := by
  obtain ⟨ids, h1, h2, h3, h4, h5, rfl⟩ := convert_ok h hc
  have hrec := setRecords_eq (d.sets ++ layerSets p.layer (d.points.map PointData.x))
  generalize hsr : setRecords (d.sets ++ layerSets p.layer (d.points.map PointData.x)) = rs at hrec ⊢
  obtain ⟨s, s1, s2, s3, s4⟩ := read_points (p := p) (sets := rs) h h1
  obtain ⟨wf, fit⟩ := converted_wellFormed (p := p) (sets := rs) h h1
  have hlen : (putCoords p.scale (d.points.map PointData.x)).length = d.ids.length := by
    rw [putCoords, List.length_map, List.length_map, h.points]
  obtain ⟨lists, a1, a2, a3⟩ := addBlocks_ok _ wf.nodes 0
    (List.replicate (putCoords p.scale (d.points.map PointData.x)).length []) (List.length_replicate ..)
  rw [readMesh, chooseMap_succ]
  simp only [Outcome.ok_bind]
  rw [chooseMap_succ]
  simp only [Outcome.ok_bind]
  rw [s1]
  simp only [Outcome.ok_bind]
  have hsets : loadNodeSets ⟨putCoords p.scale (d.points.map PointData.x), d.ids.map (· + 1), d.order.map (· + 1), [], [],
      List.zipWith (record d) d.blocks ids, rs⟩ d.order = .ub := by
    rw [loadNodeSets, a1]
    simp only [Outcome.ok_bind]
    rw [checkTitles_ok]
    · simp only [Outcome.ok_bind]
      apply convertSets_ub
      · intro c e he
        rcases (a3 c e).1 he with ⟨l, h1, h2⟩ | ⟨k, b, i, h1, h2, h3⟩
        · obtain ⟨_, h3⟩ := List.getElem?_eq_some_iff.mp h1
          rw [List.getElem_replicate] at h3
          subst h3
          simp at h2
        · obtain rfl : e = k := by omega
          rw [wf.length]
          exact (List.getElem?_eq_some_iff.mp h2).1
      · intro r hr c hc
        obtain ⟨x, hx, hx1, hx2⟩ := mem_of_rel hrec hr
        rw [hx2] at hc
        obtain ⟨y, -, rfl⟩ := List.mem_map.1 hc
        omega
      · simp only [InRange, not_forall] at hrange
        obtain ⟨x, hx, gid, hg, hlt⟩ := hrange
        obtain ⟨r, hr, r1, r2⟩ := mem_of_rel' hrec (List.mem_append_left _ hx)
        refine ⟨r, hr, gid + 1, ?_, ?_⟩
        · rw [r2]
          exact List.mem_map_of_mem hg
        · rw [a2]
          show (putCoords p.scale (d.points.map PointData.x)).length < gid + 1
          rw [hlen]
          omega
    · show ([] ++ rs.map NodeSet.title).Nodup
      rw [List.nil_append, titles_sets hrec, List.map_append, layer_names]
      · by_cases hl : p.layer = none
        · rw [if_pos hl, List.append_nil]
          exact h.setNames.imp fun h => ne_of_lt h
        · rw [if_neg hl]
          refine List.nodup_append.2 ⟨h.setNames.imp fun h => ne_of_lt h, by decide, ?_⟩
          intro a ha b hb hab
          subst hab
          obtain ⟨s, hs, rfl⟩ := List.mem_map.1 ha
          exact hclash hl s hs hb
      · intro s hs
        rcases List.mem_append.1 hs with hs | hs
        · exact h.setNamed s hs
        · have : s.1 ∈ (layerSets p.layer (d.points.map PointData.x)).map Prod.fst := List.mem_map_of_mem hs
          rw [layer_names] at this
          split_ifs at this
          · simp at this
          · intro h0
            rw [h0] at this
            revert this
            decide
  rw [hsets]
  rfl

/-- One point with the number 6. -/
example : ∃ g, convert ⟨1, none⟩ ⟨[5], [⟨1, 1, 0⟩], [("block_1", [5])], [("nodelist_1", [5])]⟩ = .ok g ∧
    readMesh g = .ub := by
  have hs : Disc.Sound ⟨[5], [⟨1, 1, 0⟩], [("block_1", [5])], [("nodelist_1", [5])]⟩ :=
    ⟨by decide, rfl, by decide, by decide, by decide, by decide, by decide, by decide, by decide⟩
  obtain ⟨g, hg⟩ := C197_defined (p := ⟨1, none⟩) hs (ids := [1]) (.cons (by decide) .nil) (by decide) (by decide)
    (by decide) (by decide)
  exact ⟨g, hg, C198_undefined hs (fun h => absurd rfl h) (by unfold InRange; decide) hg⟩

/-! ### Boundary layers -/

theorem layer_members {p : Params} {d : Disc} (h : d.Sound) {t : ℝ} (hx : Representable d) {gid : Nat} :
    (∀ a, (∃ c ∈ (fillLayers (boundingBox (d.points.map PointData.x)) t 0 (d.points.map PointData.x)
          ⟨fun _ => [], fun _ => [], []⟩).minFace a, d.ids[c]? = some gid) ↔
        ∃ pt, Holds d gid pt ∧ ∀ gid' q, Holds d gid' q → pt.x a < q.x a + t) ∧
    (∀ a, (∃ c ∈ (fillLayers (boundingBox (d.points.map PointData.x)) t 0 (d.points.map PointData.x)
          ⟨fun _ => [], fun _ => [], []⟩).maxFace a, d.ids[c]? = some gid) ↔
        ∃ pt, Holds d gid pt ∧ ∀ gid' q, Holds d gid' q → pt.x a > q.x a - t) ∧
    ((∃ c ∈ (fillLayers (boundingBox (d.points.map PointData.x)) t 0 (d.points.map PointData.x)
          ⟨fun _ => [], fun _ => [], []⟩).initial, d.ids[c]? = some gid) ↔
        ∃ pt, Holds d gid pt ∧ ∃ gid' q, Holds d gid' q ∧ pt.x 0 ≤ q.x 0 - t) := by
  have hb : ∀ a, ∀ y ∈ d.points.map PointData.x, |y a| ≤ dblMax := by
    intro a y hy
    obtain ⟨pt, hpt, rfl⟩ := List.mem_map.1 hy
    obtain ⟨k, hk, rfl⟩ := List.getElem_of_mem hpt
    have hk' : k < d.ids.length := by rw [← h.points]; exact hk
    exact hx _ _ ⟨k, List.getElem?_eq_getElem hk', List.getElem?_eq_getElem hk⟩ a
  have hall : ∀ {P : V3 → Prop}, (∀ y ∈ d.points.map PointData.x, P y) ↔ ∀ gid' q, Holds d gid' q → P q.x := by
    intro P
    constructor
    · rintro H gid' q ⟨k, k1, k2⟩
      exact H _ (List.mem_map_of_mem (List.mem_of_getElem? k2))
    · intro H y hy
      obtain ⟨pt, hpt, rfl⟩ := List.mem_map.1 hy
      obtain ⟨k, hk, rfl⟩ := List.getElem_of_mem hpt
      have hk' : k < d.ids.length := by rw [← h.points]; exact hk
      exact H _ _ ⟨k, List.getElem?_eq_getElem hk', List.getElem?_eq_getElem hk⟩
  have key : ∀ {l : List Nat} {P Q : V3 → Prop},
      (∀ c, c ∈ l ↔ c ∈ ([] : List Nat) ∨ ∃ j x, c = 0 + j ∧ (d.points.map PointData.x)[j]? = some x ∧ P x) →
      (∀ x ∈ d.points.map PointData.x, P x ↔ Q x) →
      ((∃ c ∈ l, d.ids[c]? = some gid) ↔ ∃ pt, Holds d gid pt ∧ Q pt.x) := by
    intro l P Q hl hPQ
    constructor
    · rintro ⟨c, c1, c2⟩
      rcases (hl c).1 c1 with h0 | ⟨j, x, rfl, j1, j2⟩
      · simp at h0
      · rw [Nat.zero_add] at c2
        rw [List.getElem?_map, Option.map_eq_some_iff] at j1
        obtain ⟨pt, j3, rfl⟩ := j1
        exact ⟨pt, ⟨j, c2, j3⟩, (hPQ _ (List.mem_map_of_mem (List.mem_of_getElem? j3))).1 j2⟩
    · rintro ⟨pt, ⟨k, k1, k2⟩, hq⟩
      refine ⟨k, (hl k).2 (.inr ⟨k, pt.x, (Nat.zero_add k).symm, ?_, ?_⟩), k1⟩
      · rw [List.getElem?_map, k2]
        rfl
      · exact (hPQ _ (List.mem_map_of_mem (List.mem_of_getElem? k2))).2 hq
  have hf := fillLayers_mem (boundingBox (d.points.map PointData.x)) t (d.points.map PointData.x) 0
    ⟨fun _ => [], fun _ => [], []⟩
  refine ⟨fun a => ?_, fun a => ?_, ?_⟩
  · refine key (Q := fun x => ∀ gid' q, Holds d gid' q → x a < q.x a + t) (fun c => (hf c).1 a) fun x hxm => ?_
    rw [box_lo hxm (hb a), hall (P := fun y => x a < y a + t)]
  · refine key (Q := fun x => ∀ gid' q, Holds d gid' q → x a > q.x a - t) (fun c => (hf c).2.1 a) fun x hxm => ?_
    rw [box_hi hxm (hb a), hall (P := fun y => x a > y a - t)]
  · refine key (Q := fun x => ∃ gid' q, Holds d gid' q ∧ x 0 ≤ q.x 0 - t) (fun c => (hf c).2.2) fun x hxm => ?_
    rw [box_hi hxm (hb 0), hall (P := fun y => x 0 > y 0 - t)]
    push Not
    rfl

/-- **C199** With a boundary layer thickness `t` the converted mesh has six more node sets: for each axis the points
that are less than `t` away from the lowest point along the axis, and those less than `t` away from the highest; and
a set of all points that are not in the layer at the upper end of x.  The distances are those of the mesh before
scaling.  This holds for any numbering of the elements. -/
theorem C199_layers {p : Params} {d : Disc} (h : d.Sound) (hclash : NoClash p d) (hrange : InRange d)
    (hx : Representable d) {t : ℝ} (ht : p.layer = some t) {g : Genesis} (hc : convert p d = .ok g) :
    ∃ d', readMesh g = .ok d' ∧
      (∀ a, ∃ s, (minName a, s) ∈ d'.sets ∧ s.Nodup ∧ ∀ gid, gid ∈ s ↔
        ∃ pt, Holds d gid pt ∧ ∀ gid' q, Holds d gid' q → pt.x a < q.x a + t) ∧
      (∀ a, ∃ s, (maxName a, s) ∈ d'.sets ∧ s.Nodup ∧ ∀ gid, gid ∈ s ↔
        ∃ pt, Holds d gid pt ∧ ∀ gid' q, Holds d gid' q → pt.x a > q.x a - t) ∧
      (∃ s, ("initial_velocity_node_set", s) ∈ d'.sets ∧ s.Nodup ∧ ∀ gid, gid ∈ s ↔
        ∃ pt, Holds d gid pt ∧ ∃ gid' q, Holds d gid' q ∧ pt.x 0 ≤ q.x 0 - t) := by
  obtain ⟨d', r1, -, -, -, -, out, o1, o2⟩ := convert_read h hclash hrange hc
  refine ⟨d', r1, ?_, ?_, ?_⟩
  · intro a
    obtain ⟨s', s1, s2, s3⟩ := sets_of_read o1 o2 (s := (minName a,
      (fillLayers (boundingBox (d.points.map PointData.x)) t 0 (d.points.map PointData.x)
          ⟨fun _ => [], fun _ => [], []⟩).minFace a)) (List.mem_append_right _ (by
        rw [ht]
        fin_cases a <;> simp [layerSets, minName]))
    exact ⟨s', s1, s2, fun gid => (s3 gid).trans ((layer_members (p := p) h hx).1 a)⟩
  · intro a
    obtain ⟨s', s1, s2, s3⟩ := sets_of_read o1 o2 (s := (maxName a,
      (fillLayers (boundingBox (d.points.map PointData.x)) t 0 (d.points.map PointData.x)
          ⟨fun _ => [], fun _ => [], []⟩).maxFace a)) (List.mem_append_right _ (by
        rw [ht]
        fin_cases a <;> simp [layerSets, maxName]))
    exact ⟨s', s1, s2, fun gid => (s3 gid).trans ((layer_members (p := p) h hx).2.1 a)⟩
  · obtain ⟨s', s1, s2, s3⟩ := sets_of_read o1 o2 (s := ("initial_velocity_node_set",
      (fillLayers (boundingBox (d.points.map PointData.x)) t 0 (d.points.map PointData.x)
          ⟨fun _ => [], fun _ => [], []⟩).initial)) (List.mem_append_right _ (by
        rw [ht]
        simp [layerSets]))
    exact ⟨s', s1, s2, fun gid => (s3 gid).trans (layer_members (p := p) h hx).2.2⟩

theorem dblMax_large : 5 ≤ dblMax := by
  have h1 : (1 : ℝ) ≤ 2 - (1 / 2) ^ 52 := by norm_num
  have h2 : (5 : ℝ) ≤ 2 ^ 1023 := by
    calc (5 : ℝ) ≤ 2 ^ 3 := by norm_num
      _ ≤ 2 ^ 1023 := pow_le_pow_right₀ (by norm_num) (by norm_num)
  rw [dblMax]
  calc (5 : ℝ) ≤ 2 ^ 1023 := h2
    _ = 1 * 2 ^ 1023 := (one_mul _).symm
    _ ≤ _ := mul_le_mul_of_nonneg_right h1 (by positivity)

theorem demo_points {gid : Nat} {pt : PointData} (h : Holds demo gid pt) :
    (gid = 2 ∧ pt = ⟨3, 1, ![1 / 2, 1 / 2, 1 / 2]⟩) ∨ (gid = 0 ∧ pt = ⟨7, 4, ![5, 0, 0]⟩) ∨
      (gid = 1 ∧ pt = ⟨7, 32, ![1, 0, 0]⟩) := by
  obtain ⟨k, h1, h2⟩ := h
  rcases k with _ | _ | _ | k
  · cases h1; cases h2; exact .inl ⟨rfl, rfl⟩
  · cases h1; cases h2; exact .inr (.inl ⟨rfl, rfl⟩)
  · cases h1; cases h2; exact .inr (.inr ⟨rfl, rfl⟩)
  · simp [demo] at h1

theorem demo_representable : Representable demo := by
  have := dblMax_large
  intro gid pt h a
  rcases demo_points h with ⟨-, rfl⟩ | ⟨-, rfl⟩ | ⟨-, rfl⟩ <;> fin_cases a <;> norm_num <;>
    linarith

/-- With a thickness of one the points 2 and 1, at 1/2 and 1, are in the layer at the lower end of x; the point 0, at
5, is not. -/
example : ∃ g d', convert ⟨1, some 1⟩ demo = .ok g ∧ readMesh g = .ok d' ∧
    ∃ s, ("min_x_face", s) ∈ d'.sets ∧ 2 ∈ s ∧ 1 ∈ s ∧ 0 ∉ s := by
  obtain ⟨g, hg⟩ := demo_converts ⟨1, some 1⟩
  obtain ⟨d', r1, r2, -⟩ := C199_layers demo_sound (by unfold NoClash; decide) demo_inRange demo_representable
    (t := 1) rfl hg
  obtain ⟨s, s1, -, s2⟩ := r2 0
  refine ⟨g, d', hg, r1, s, s1, (s2 2).2 ⟨_, ⟨0, rfl, rfl⟩, ?_⟩, (s2 1).2 ⟨_, ⟨2, rfl, rfl⟩, ?_⟩, ?_⟩
  · intro gid' q hq
    rcases demo_points hq with ⟨-, rfl⟩ | ⟨-, rfl⟩ | ⟨-, rfl⟩ <;> norm_num
  · intro gid' q hq
    rcases demo_points hq with ⟨-, rfl⟩ | ⟨-, rfl⟩ | ⟨-, rfl⟩ <;> norm_num
  · intro hm
    obtain ⟨pt, h1, h2⟩ := (s2 0).1 hm
    rcases demo_points h1 with ⟨h3, -⟩ | ⟨-, rfl⟩ | ⟨h3, -⟩
    · cases h3
    · have := h2 2 _ ⟨0, rfl, rfl⟩
      norm_num at this
    · cases h3

/-- **C199** A node set that has the name of a layer is not noticed by the converter, but then the converted mesh
cannot be read. -/
theorem C199_clash {p : Params} {d : Disc} (h : d.Sound) (hclash : ¬ NoClash p d) {g : Genesis}
    (hc : convert p d = .ok g) : readMesh g = .fail .terminate := by
  obtain ⟨ids, h1, h2, h3, h4, h5, rfl⟩ := convert_ok h hc
  have hrec := setRecords_eq (d.sets ++ layerSets p.layer (d.points.map PointData.x))
  generalize setRecords (d.sets ++ layerSets p.layer (d.points.map PointData.x)) = rs at hrec ⊢
  obtain ⟨s, s1, s2, s3, s4⟩ := read_points (p := p) (sets := rs) h h1
  obtain ⟨wf, fit⟩ := converted_wellFormed (p := p) (sets := rs) h h1
  rw [readMesh, chooseMap_succ]
  simp only [Outcome.ok_bind]
  rw [chooseMap_succ]
  simp only [Outcome.ok_bind]
  rw [s1]
  simp only [Outcome.ok_bind]
  rw [C123_duplicate wf]
  · rfl
  · show ¬ (rs.map NodeSet.title).Nodup
    simp only [NoClash, not_forall, not_not] at hclash
    obtain ⟨hl, x, hx, hn⟩ := hclash
    rw [titles_sets hrec, List.map_append, layer_names, if_neg hl]
    · intro hnd
      exact (List.nodup_append.1 hnd).2.2 _ (List.mem_map_of_mem hx) _ hn rfl
    · intro s hs
      rcases List.mem_append.1 hs with hs | hs
      · exact h.setNamed s hs
      · have : s.1 ∈ (layerSets p.layer (d.points.map PointData.x)).map Prod.fst := List.mem_map_of_mem hs
        rw [layer_names, if_neg hl] at this
        intro h0
        rw [h0] at this
        revert this
        decide

example : ∃ g, convert ⟨1, some 1⟩ ⟨[0], [⟨1, 1, 0⟩], [("block_1", [0])], [("max_x_face", [0])]⟩ = .ok g ∧
    readMesh g = .fail .terminate := by
  have hs : Disc.Sound ⟨[0], [⟨1, 1, 0⟩], [("block_1", [0])], [("max_x_face", [0])]⟩ :=
    ⟨by decide, rfl, by decide, by decide, by decide, by decide, by decide, by decide, by decide⟩
  obtain ⟨g, hg⟩ := C197_defined (p := ⟨1, some 1⟩) hs (ids := [1]) (.cons (by decide) .nil) (by decide) (by decide)
    (by decide) (by decide)
  refine ⟨g, hg, C199_clash hs ?_ hg⟩
  intro h
  exact h (by simp) ("max_x_face", [0]) (by decide) (by decide)

end Verif.Convert
