import Verif.Convert.Lemmas

/-! Lemmas on reading the converted file. -/

noncomputable section

namespace Verif.Convert

open Verif Verif.Mech Verif.Neigh Verif.Mesh
open Verif.Exodus (copyNames concatSets maxStr)
open scoped Classical

theorem mem_zipWith {α β γ : Type} {f : α → β → γ} : ∀ {l : List α} {l' : List β} {x : γ}, x ∈ List.zipWith f l l' →
    ∃ a ∈ l, ∃ b ∈ l', x = f a b
  | [], _, x, h => by simp at h
  | _ :: _, [], x, h => by simp at h
  | a :: l, b :: l', x, h => by
    rw [List.zipWith_cons_cons, List.mem_cons] at h
    rcases h with rfl | h
    · exact ⟨a, List.mem_cons_self, b, List.mem_cons_self, rfl⟩
    · obtain ⟨c, hc, e, he, h⟩ := mem_zipWith h
      exact ⟨c, List.mem_cons_of_mem _ hc, e, List.mem_cons_of_mem _ he, h⟩

/-- An element and its id. -/
def Fits (d : Disc) (t : ElemBlock × Nat) (gid : Nat) : Prop :=
  ∃ b id, b ∈ d.blocks ∧ Params.blockNameToBlockId b.1.toList = .ok id ∧ t.1 = record d b id ∧ b.2[t.2]? = some gid

theorem elements_records (d : Disc) {bs : List (String × List Nat)} {ids : List ℤ}
    (h : List.Forall₂ (fun (b : String × List Nat) id => Params.blockNameToBlockId b.1.toList = .ok id) bs ids)
    (hs : ∀ b ∈ bs, b ∈ d.blocks) :
    List.Forall₂ (Fits d) (elements (List.zipWith (record d) bs ids)) (bs.map Prod.snd).flatten := by
  induction h with
  | nil => exact .nil
  | @cons b id bs ids h1 _ ih =>
    rw [List.zipWith_cons_cons, elements_cons, List.map_cons, List.flatten_cons]
    refine List.rel_append ?_ (ih fun x hx => hs x (List.mem_cons_of_mem _ hx))
    rw [List.forall₂_iff_get]
    refine ⟨by simp [record], fun i g1 g2 => ?_⟩
    refine ⟨b, id, hs b List.mem_cons_self, h1, ?_, ?_⟩
    · simp
    · simp

theorem sphere_upper : upper "SPHERE" = "SPHERE" := by decide

theorem upper_records {d : Disc} {b : String × List Nat} {id : ℤ} : upper (record d b id).elemType = "SPHERE" :=
  sphere_upper

theorem title_record {d : Disc} {b : String × List Nat} {id : ℤ} (h : b.1 ≠ "") : (record d b id).title = b.1 := by
  rw [ElemBlock.title, if_neg]
  · rfl
  · intro h0
    apply h
    exact String.length_eq_zero_iff.1 h0

theorem titles_records {d : Disc} {bs : List (String × List Nat)} {ids : List ℤ} (hl : bs.length = ids.length)
    (h : ∀ b ∈ bs, b.1 ≠ "") : (List.zipWith (record d) bs ids).map ElemBlock.title = bs.map Prod.fst := by
  induction bs generalizing ids with
  | nil => simp
  | cons b bs ih =>
    cases ids with
    | nil => simp at hl
    | cons id ids =>
      rw [List.zipWith_cons_cons, List.map_cons, List.map_cons, title_record (h b List.mem_cons_self),
        ih (by simpa using hl) fun x hx => h x (List.mem_cons_of_mem _ hx)]

theorem hasNode_record {d : Disc} {b : String × List Nat} {id : ℤ} {e gid j c : Nat} (h : b.2[e]? = some gid) :
    HasNode (record d b id) e j c ↔ j = 0 ∧ c = d.ids.idxOf gid := by
  have h1 := conn_get d h
  constructor
  · rintro ⟨h2, h3⟩
    have h2 : j < 1 := h2
    obtain rfl : j = 0 := by omega
    have h3 : (conn d b.2)[e * 1 + 0]? = some (c + 1) := h3
    rw [Nat.mul_one, Nat.add_zero, h1] at h3
    have := Option.some.inj h3
    exact ⟨rfl, by omega⟩
  · rintro ⟨rfl, rfl⟩
    refine ⟨Nat.one_pos, ?_⟩
    show (conn d b.2)[e * 1 + 0]? = _
    rw [Nat.mul_one, Nat.add_zero, h1]

/-- Two divisions of the same list with the same names and sizes are the same. -/
theorem divisions_eq : ∀ {a b : List (String × List Nat)},
    List.Forall₂ (fun (x y : String × List Nat) => y.1 = x.1 ∧ y.2.length = x.2.length) a b →
      (a.map Prod.snd).flatten = (b.map Prod.snd).flatten → b = a
  | [], _, .nil, _ => rfl
  | (n, s) :: a, (m, t) :: b, .cons ⟨h1, h2⟩ h3, h => by
    simp only [List.map_cons, List.flatten_cons] at h
    simp only at h1 h2
    obtain ⟨e1, e2⟩ := List.append_inj h h2.symm
    rw [divisions_eq h3 e2, h1, e1]

theorem forall₂_records {d : Disc} {bs : List (String × List Nat)} {ids : List ℤ} (hl : bs.length = ids.length)
    (h : ∀ b ∈ bs, b.1 ≠ "") {out : List (String × List Nat)}
    (ho : List.Forall₂ (fun (b : ElemBlock) (e : String × List Nat) => e.1 = b.title ∧ e.2.length = b.numElem)
      (List.zipWith (record d) bs ids) out) :
    List.Forall₂ (fun (x y : String × List Nat) => y.1 = x.1 ∧ y.2.length = x.2.length) bs out := by
  induction bs generalizing ids out with
  | nil =>
    rw [List.zipWith_nil_left] at ho
    cases ho
    exact .nil
  | cons b bs ih =>
    cases ids with
    | nil => simp at hl
    | cons id ids =>
      rw [List.zipWith_cons_cons] at ho
      cases ho with
      | cons h1 h2 =>
        refine .cons ⟨?_, h1.2⟩ (ih (by simpa using hl) (fun x hx => h x (List.mem_cons_of_mem _ hx)) h2)
        rw [h1.1, title_record (h b List.mem_cons_self)]

theorem sorted_of_lt {l : List (String × List Nat)} (h : (l.map Prod.fst).Pairwise (· < ·)) :
    l.insertionSort byName = l := by
  apply List.Pairwise.insertionSort_eq
  rw [List.pairwise_map] at h
  exact h.imp fun h => le_of_lt h

/-- The converted file is consistent. -/
theorem converted_wellFormed {p : Params} {d : Disc} (h : d.Sound) {ids : List ℤ} {sets : List NodeSet}
    (h1 : List.Forall₂ (fun (b : String × List Nat) id => Params.blockNameToBlockId b.1.toList = .ok id) d.blocks ids) :
    WellFormed ⟨putCoords p.scale (d.points.map PointData.x), d.ids.map (· + 1), d.order.map (· + 1), [], [],
        List.zipWith (record d) d.blocks ids, sets⟩ d.order ∧
    ∀ b ∈ List.zipWith (record d) d.blocks ids, ∀ e < b.numElem,
      Fit ⟨putCoords p.scale (d.points.map PointData.x), d.ids.map (· + 1), d.order.map (· + 1), [], [],
        List.zipWith (record d) d.blocks ids, sets⟩ b e := by
  have hel : List.Forall₂ (Fits d) (elements (List.zipWith (record d) d.blocks ids)) d.order :=
    elements_records d h1 fun _ hb => hb
  constructor
  · refine ⟨h.divided.nodup_iff.2 h.nodup, hel.length_eq.symm, ?_, ?_⟩
    · intro b hb e he i hi
      obtain ⟨a, ha, id, -, rfl⟩ := mem_zipWith hb
      have he : e < a.2.length := he
      have hi : i < 1 := hi
      obtain rfl : i = 0 := by omega
      have hg : a.2[e]? = some a.2[e] := List.getElem?_eq_getElem he
      refine ⟨_, (hasNode_record hg).2 ⟨rfl, rfl⟩, ?_⟩
      have hm : a.2[e] ∈ d.ids := mem_ids_of_block h ha (List.getElem_mem he)
      show _ < (putCoords p.scale (d.points.map PointData.x)).length
      rw [putCoords, List.length_map, List.length_map, h.points]
      exact List.idxOf_lt_length_iff.2 hm
    · show ((List.zipWith (record d) d.blocks ids).map ElemBlock.title).Nodup
      rw [titles_records h1.length_eq h.blockNamed]
      exact h.blockNames.imp fun h => ne_of_lt h
  · intro b hb e he
    obtain ⟨a, ha, id, -, rfl⟩ := mem_zipWith hb
    exact .inl ⟨upper_records, le_refl 1, le_refl 2, attrs_length d a.2⟩

theorem chooseMap_succ (l : List Nat) : chooseMap (l.map (· + 1)) [] = .ok l := by
  rw [chooseMap, List.map_map]
  congr 1
  conv_rhs => rw [← List.map_id l]
  rfl

theorem coords_at {p : Params} {d : Disc} (h : d.Sound) {gid : Nat} (hg : gid ∈ d.ids) :
    (putCoords p.scale (d.points.map PointData.x)).getD (d.ids.idxOf gid) 0 = p.scale • (d.data gid).x := by
  rw [putCoords, List.map_map, List.getD_eq_getElem?_getD, List.getElem?_map, h.at hg]
  rfl

/-- The points of the converted file. -/
theorem read_points {p : Params} {d : Disc} (h : d.Sound) {ids : List ℤ} {sets : List NodeSet}
    (h1 : List.Forall₂ (fun (b : String × List Nat) id => Params.blockNameToBlockId b.1.toList = .ok id) d.blocks ids) :
    ∃ s, loadMesh ⟨putCoords p.scale (d.points.map PointData.x), d.ids.map (· + 1), d.order.map (· + 1), [], [],
        List.zipWith (record d) d.blocks ids, sets⟩ d.order = .ok s ∧ s.blocks = d.blocks ∧
      s.points.length = d.order.length ∧
      ∀ (k : Nat) gid, d.order[k]? = some gid → ∃ b id, b ∈ d.blocks ∧ gid ∈ b.2 ∧
        Params.blockNameToBlockId b.1.toList = .ok id ∧
        s.points[k]? = some ⟨id, (d.data gid).volume, p.scale • (d.data gid).x⟩ := by
  obtain ⟨wf, fit⟩ := converted_wellFormed (p := p) (sets := sets) h h1
  obtain ⟨s, e1, e2, e3, e4, e5⟩ := C122_points wf fit
  have hel : List.Forall₂ (Fits d) (elements (List.zipWith (record d) d.blocks ids)) d.order :=
    elements_records d h1 fun _ hb => hb
  refine ⟨s, e1, ?_, e3, ?_⟩
  · exact divisions_eq (forall₂_records h1.length_eq h.blockNamed e4) e5.symm
  · intro k gid hk
    obtain ⟨hk', hk2⟩ := List.getElem?_eq_some_iff.mp hk
    have hk1 : k < (elements (List.zipWith (record d) d.blocks ids)).length := by rw [hel.length_eq]; exact hk'
    have hk3 : k < s.points.length := by rw [e3]; exact hk'
    obtain ⟨b, id, b1, b2, b3, b4⟩ := (List.forall₂_iff_get.1 hel).2 k hk1 hk'
    have hr := (List.forall₂_iff_get.1 e2).2 k hk1 hk3
    simp only [List.get_eq_getElem] at b3 b4 hr
    rw [hk2] at b4
    generalize hi : (elements (List.zipWith (record d) d.blocks ids))[k].2 = i at *
    rw [b3] at hr
    obtain ⟨r1, r2, -, -⟩ := hr
    obtain ⟨r3, r4⟩ := r2 upper_records
    have hg : gid ∈ d.ids := mem_ids_of_block h b1 (List.mem_of_getElem? b4)
    refine ⟨b, id, b1, List.mem_of_getElem? b4, b2, ?_⟩
    rw [List.getElem?_eq_getElem hk3]
    congr 1
    have hx : s.points[k].x = p.scale • (d.data gid).x := by
      rw [r3, ← coords_at h hg, corner]
      show (putCoords p.scale (d.points.map PointData.x)).getD ((conn d b.2).getD (i * 1 + 0) 0 - 1) 0 = _
      rw [Nat.mul_one, Nat.add_zero, List.getD_eq_getElem?_getD (l := conn d b.2), conn_get d b4]
      rfl
    have hv : s.points[k].volume = (d.data gid).volume := by
      have r4 : (attrs d b.2)[i * 2 + 1]? = some s.points[k].volume := r4
      rw [(attrs_get d b4).2] at r4
      exact (Option.some.inj r4).symm
    have hb : s.points[k].block = id := r1
    rw [← hx, ← hv, ← hb]

theorem title_set {r : NodeSet} {s : String × List Nat} (h : r.name = s.1) (hs : s.1 ≠ "") : r.title = s.1 := by
  rw [NodeSet.title, if_neg, h]
  rw [h]
  intro h0
  exact hs (String.length_eq_zero_iff.1 h0)

theorem titles_sets {sets : List (String × List Nat)} {rs : List NodeSet}
    (h : List.Forall₂ (fun (s : String × List Nat) (r : NodeSet) => r.name = s.1 ∧ r.nodes = s.2.map (· + 1)) sets rs)
    (hn : ∀ s ∈ sets, s.1 ≠ "") : rs.map NodeSet.title = sets.map Prod.fst := by
  induction h with
  | nil => rfl
  | @cons s r ss rs h1 _ ih =>
    rw [List.map_cons, List.map_cons, title_set h1.1 (hn s List.mem_cons_self),
      ih fun x hx => hn x (List.mem_cons_of_mem _ hx)]

/-- The node sets of the converted file. -/
theorem read_sets {p : Params} {d : Disc} (h : d.Sound) {ids : List ℤ} {all : List (String × List Nat)}
    (h1 : List.Forall₂ (fun (b : String × List Nat) id => Params.blockNameToBlockId b.1.toList = .ok id) d.blocks ids)
    (hr : ∀ s ∈ all, ∀ c ∈ s.2, c < d.ids.length) (hn : ∀ s ∈ all, s.1 ≠ "") (hd : (all.map Prod.fst).Nodup) :
    ∃ out, loadNodeSets ⟨putCoords p.scale (d.points.map PointData.x), d.ids.map (· + 1), d.order.map (· + 1), [], [],
        List.zipWith (record d) d.blocks ids, setRecords all⟩ d.order = .ok out ∧
      List.Forall₂ (fun (s o : String × List Nat) => o.1 = s.1 ∧ o.2.Nodup ∧
        ∀ gid, gid ∈ o.2 ↔ ∃ c ∈ s.2, d.ids[c]? = some gid) all out := by
  obtain ⟨wf, fit⟩ := converted_wellFormed (p := p) (sets := setRecords all) h h1
  have hel : List.Forall₂ (Fits d) (elements (List.zipWith (record d) d.blocks ids)) d.order :=
    elements_records d h1 fun _ hb => hb
  have hrec := setRecords_eq all
  obtain ⟨out, e1, e2⟩ := C123_sets wf (by
    intro r hr' c hc
    have hr' : r ∈ setRecords all := hr'
    obtain ⟨i, hi, rfl⟩ := List.getElem_of_mem hr'
    have hi' : i < all.length := by rw [hrec.length_eq]; exact hi
    have := (List.forall₂_iff_get.1 hrec).2 i hi' hi
    simp only [List.get_eq_getElem] at this
    rw [this.2] at hc
    obtain ⟨x, hx, rfl⟩ := List.mem_map.1 hc
    have := hr _ (List.getElem_mem hi') x hx
    refine ⟨by omega, ?_⟩
    show _ ≤ (putCoords p.scale (d.points.map PointData.x)).length
    rw [putCoords, List.length_map, List.length_map, h.points]
    exact this) (by
    show ((setRecords all).map NodeSet.title).Nodup
    rw [titles_sets hrec hn]
    exact hd)
  refine ⟨out, e1, ?_⟩
  have e2 : List.Forall₂ _ (setRecords all) out := e2
  rw [List.forall₂_iff_get]
  refine ⟨hrec.length_eq.trans e2.length_eq, fun i i1 i2 => ?_⟩
  have i3 : i < (setRecords all).length := by rw [← hrec.length_eq]; exact i1
  obtain ⟨q1, q2⟩ := (List.forall₂_iff_get.1 hrec).2 i i1 i3
  obtain ⟨w1, w2, w3⟩ := (List.forall₂_iff_get.1 e2).2 i i3 i2
  simp only [List.get_eq_getElem] at *
  refine ⟨?_, w2, fun gid => ?_⟩
  · rw [w1, title_set q1 (hn _ (List.getElem_mem i1))]
  rw [w3, q2]
  constructor
  · rintro ⟨k, b, e, k1, k2, j, c, k3, k4⟩
    obtain ⟨hk, hk2⟩ := List.getElem?_eq_some_iff.mp k1
    have k2 : (elements (List.zipWith (record d) d.blocks ids))[k]? = some (b, e) := k2
    obtain ⟨hk', hk3⟩ := List.getElem?_eq_some_iff.mp k2
    obtain ⟨blk, id, b1, b2, b3, b4⟩ := (List.forall₂_iff_get.1 hel).2 k hk' hk
    simp only [List.get_eq_getElem] at b3 b4
    rw [hk2, hk3] at b4
    rw [hk3] at b3
    simp only at b3 b4
    subst b3
    obtain ⟨-, rfl⟩ := (hasNode_record b4).1 k3
    obtain ⟨x, hx, hxe⟩ := List.mem_map.1 k4
    have : x = d.ids.idxOf gid := by omega
    subst this
    exact ⟨_, hx, getElem?_idxOf (mem_ids_of_block h b1 (List.mem_of_getElem? b4))⟩
  · rintro ⟨c, c1, c2⟩
    have hg : gid ∈ d.order := (mem_order h).2 (List.mem_of_getElem? c2)
    obtain ⟨k, hk, hk2⟩ := List.getElem_of_mem hg
    have hk' : k < (elements (List.zipWith (record d) d.blocks ids)).length := by rw [hel.length_eq]; exact hk
    obtain ⟨blk, id, b1, b2, b3, b4⟩ := (List.forall₂_iff_get.1 hel).2 k hk' hk
    simp only [List.get_eq_getElem] at b3 b4
    rw [hk2] at b4
    refine ⟨k, _, (elements (List.zipWith (record d) d.blocks ids))[k].2,
      by rw [List.getElem?_eq_getElem hk, hk2], List.getElem?_eq_getElem hk', 0, c, ?_, ?_⟩
    · rw [List.get_eq_getElem, b3]
      exact (hasNode_record b4).2 ⟨rfl, (h.idx c2).symm⟩
    · exact List.mem_map.2 ⟨c, c1, rfl⟩

/-! ### Boundary layers -/

theorem layer_names (layer : Option ℝ) (xs : List V3) :
    (layerSets layer xs).map Prod.fst = if layer = none then [] else layerNames := by
  cases layer with
  | none => rfl
  | some t =>
    rw [if_neg (by simp)]
    rfl

theorem grow_facts (xs : List V3) : ∀ (b : Box) (a : Fin 3),
    ((xs.foldl Box.grow b).lo a ≤ b.lo a ∧ (∀ x ∈ xs, (xs.foldl Box.grow b).lo a ≤ x a) ∧
      ((xs.foldl Box.grow b).lo a = b.lo a ∨ ∃ x ∈ xs, (xs.foldl Box.grow b).lo a = x a)) ∧
    (b.hi a ≤ (xs.foldl Box.grow b).hi a ∧ (∀ x ∈ xs, x a ≤ (xs.foldl Box.grow b).hi a) ∧
      ((xs.foldl Box.grow b).hi a = b.hi a ∨ ∃ x ∈ xs, (xs.foldl Box.grow b).hi a = x a)) := by
  induction xs with
  | nil =>
    intro b a
    simp
  | cons x xs ih =>
    intro b a
    rw [List.foldl_cons]
    obtain ⟨⟨l1, l2, l3⟩, u1, u2, u3⟩ := ih (b.grow x) a
    have hlo : (b.grow x).lo a = if x a < b.lo a then x a else b.lo a := rfl
    have hhi : (b.grow x).hi a = if x a > b.hi a then x a else b.hi a := rfl
    refine ⟨⟨?_, ?_, ?_⟩, ?_, ?_, ?_⟩
    · refine l1.trans ?_
      rw [hlo]
      split_ifs with hc
      · exact le_of_lt hc
      · exact le_refl _
    · intro y hy
      rcases List.mem_cons.1 hy with rfl | hy
      · refine l1.trans ?_
        rw [hlo]
        split_ifs with hc
        · exact le_refl _
        · exact not_lt.1 hc
      · exact l2 y hy
    · rcases l3 with l3 | ⟨y, hy, l3⟩
      · rw [hlo] at l3
        split_ifs at l3 with hc
        · exact .inr ⟨x, List.mem_cons_self, l3⟩
        · exact .inl l3
      · exact .inr ⟨y, List.mem_cons_of_mem _ hy, l3⟩
    · refine le_trans ?_ u1
      rw [hhi]
      split_ifs with hc
      · exact le_of_lt hc
      · exact le_refl _
    · intro y hy
      rcases List.mem_cons.1 hy with rfl | hy
      · refine le_trans ?_ u1
        rw [hhi]
        split_ifs with hc
        · exact le_refl _
        · exact not_lt.1 hc
      · exact u2 y hy
    · rcases u3 with u3 | ⟨y, hy, u3⟩
      · rw [hhi] at u3
        split_ifs at u3 with hc
        · exact .inr ⟨x, List.mem_cons_self, u3⟩
        · exact .inl u3
      · exact .inr ⟨y, List.mem_cons_of_mem _ hy, u3⟩

/-- The box has the least coordinates of the points. -/
theorem box_lo {xs : List V3} {x : V3} (hx : x ∈ xs) {a : Fin 3} (hb : ∀ y ∈ xs, |y a| ≤ dblMax) (t v : ℝ) :
    v < (boundingBox xs).lo a + t ↔ ∀ y ∈ xs, v < y a + t := by
  obtain ⟨⟨-, l2, l3⟩, -⟩ := grow_facts xs ⟨fun _ => dblMax, fun _ => -dblMax⟩ a
  change (boundingBox xs).lo a = dblMax ∨ _ at l3
  constructor
  · intro h y hy
    have : (boundingBox xs).lo a ≤ y a := l2 y hy
    linarith
  · intro h
    rcases l3 with l3 | ⟨y, hy, l3⟩
    · have h1 := h x hx
      have h2 := (abs_le.1 (hb x hx)).2
      rw [l3]
      linarith
    · change (boundingBox xs).lo a = y a at l3
      rw [l3]
      exact h y hy

theorem box_hi {xs : List V3} {x : V3} (hx : x ∈ xs) {a : Fin 3} (hb : ∀ y ∈ xs, |y a| ≤ dblMax) (t v : ℝ) :
    v > (boundingBox xs).hi a - t ↔ ∀ y ∈ xs, v > y a - t := by
  obtain ⟨-, -, l2, l3⟩ := grow_facts xs ⟨fun _ => dblMax, fun _ => -dblMax⟩ a
  change (boundingBox xs).hi a = -dblMax ∨ _ at l3
  constructor
  · intro h y hy
    have : y a ≤ (boundingBox xs).hi a := l2 y hy
    linarith
  · intro h
    rcases l3 with l3 | ⟨y, hy, l3⟩
    · have h1 := h x hx
      have h2 := (abs_le.1 (hb x hx)).1
      rw [l3]
      linarith
    · change (boundingBox xs).hi a = y a at l3
      rw [l3]
      exact h y hy

theorem fillLayers_mem (box : Box) (t : ℝ) (xs : List V3) : ∀ (i : Nat) (l : Layers) (k : Nat),
    (∀ a, k ∈ (fillLayers box t i xs l).minFace a ↔
      k ∈ l.minFace a ∨ ∃ j x, k = i + j ∧ xs[j]? = some x ∧ x a < box.lo a + t) ∧
    (∀ a, k ∈ (fillLayers box t i xs l).maxFace a ↔
      k ∈ l.maxFace a ∨ ∃ j x, k = i + j ∧ xs[j]? = some x ∧ x a > box.hi a - t) ∧
    (k ∈ (fillLayers box t i xs l).initial ↔
      k ∈ l.initial ∨ ∃ j x, k = i + j ∧ xs[j]? = some x ∧ ¬ x 0 > box.hi 0 - t) := by
  induction xs with
  | nil =>
    intro i l k
    simp [fillLayers]
  | cons x xs ih =>
    intro i l k
    have step : ∀ {P : V3 → Prop}, (∃ j y, k = i + j ∧ (x :: xs)[j]? = some y ∧ P y) ↔
        (k = i ∧ P x) ∨ ∃ j y, k = i + 1 + j ∧ xs[j]? = some y ∧ P y := by
      intro P
      constructor
      · rintro ⟨j, y, rfl, h2, h3⟩
        cases j with
        | zero =>
          simp at h2
          subst h2
          exact .inl ⟨rfl, h3⟩
        | succ j => exact .inr ⟨j, y, by omega, by simpa using h2, h3⟩
      · rintro (⟨rfl, h⟩ | ⟨j, y, rfl, h2, h3⟩)
        · exact ⟨0, x, rfl, rfl, h⟩
        · exact ⟨j + 1, y, by omega, by simpa using h2, h3⟩
    obtain ⟨i1, i2, i3⟩ := ih (i + 1) (l.add box t i x) k
    rw [fillLayers]
    refine ⟨fun a => ?_, fun a => ?_, ?_⟩
    · rw [i1, step]
      have : k ∈ (l.add box t i x).minFace a ↔ k ∈ l.minFace a ∨ (k = i ∧ x a < box.lo a + t) := by
        simp only [Layers.add]
        split_ifs with hc <;> simp [hc]
      rw [this, or_assoc]
    · rw [i2, step]
      have : k ∈ (l.add box t i x).maxFace a ↔ k ∈ l.maxFace a ∨ (k = i ∧ x a > box.hi a - t) := by
        simp only [Layers.add]
        split_ifs with hc <;> simp [hc]
      rw [this, or_assoc]
    · rw [i3, step]
      have : k ∈ (l.add box t i x).initial ↔ k ∈ l.initial ∨ (k = i ∧ ¬ x 0 > box.hi 0 - t) := by
        simp only [Layers.add]
        split_ifs with hc <;> simp [hc]
      rw [this, or_assoc]

theorem layer_range {layer : Option ℝ} {xs : List V3} {s : String × List Nat} (hs : s ∈ layerSets layer xs) :
    ∀ c ∈ s.2, c < xs.length := by
  cases layer with
  | none => simp [layerSets] at hs
  | some t =>
    intro c hc
    obtain ⟨h1, h2, h3⟩ := fillLayers_mem (boundingBox xs) t xs 0 ⟨fun _ => [], fun _ => [], []⟩ c
    have key : ∀ {P : V3 → Prop}, (c ∈ ([] : List Nat) ∨ ∃ j x, c = 0 + j ∧ xs[j]? = some x ∧ P x) → c < xs.length := by
      rintro P (h | ⟨j, x, rfl, h, -⟩)
      · simp at h
      · rw [Nat.zero_add]
        exact (List.getElem?_eq_some_iff.mp h).1
    simp only [layerSets, List.mem_cons, List.not_mem_nil, or_false] at hs
    rcases hs with rfl | rfl | rfl | rfl | rfl | rfl | rfl
    · exact key (h3.1 hc)
    · exact key ((h2 0).1 hc)
    · exact key ((h2 1).1 hc)
    · exact key ((h2 2).1 hc)
    · exact key ((h1 0).1 hc)
    · exact key ((h1 1).1 hc)
    · exact key ((h1 2).1 hc)

/-- Everything the converter writes, read again. -/
theorem convert_read {p : Params} {d : Disc} (h : d.Sound) (hclash : NoClash p d) (hrange : InRange d) {g : Genesis}
    (hc : convert p d = .ok g) :
    ∃ d', readMesh g = .ok d' ∧ d'.ids = d.order ∧ d'.blocks = d.blocks ∧
      (∀ (k : Nat) gid, d.order[k]? = some gid → ∃ b id, b ∈ d.blocks ∧ gid ∈ b.2 ∧
        Params.blockNameToBlockId b.1.toList = .ok id ∧
        d'.points[k]? = some ⟨id, (d.data gid).volume, p.scale • (d.data gid).x⟩) ∧
      d'.points.length = d'.ids.length ∧
      ∃ out, List.Forall₂ (fun (s o : String × List Nat) => o.1 = s.1 ∧ o.2.Nodup ∧
        ∀ gid, gid ∈ o.2 ↔ ∃ c ∈ s.2, d.ids[c]? = some gid)
          (d.sets ++ layerSets p.layer (d.points.map PointData.x)) out ∧ d'.sets = out.insertionSort byName := by
  obtain ⟨ids, h1, h2, h3, h4, h5, rfl⟩ := convert_ok h hc
  obtain ⟨s, s1, s2, s3, s4⟩ := read_points (p := p)
    (sets := setRecords (d.sets ++ layerSets p.layer (d.points.map PointData.x))) h h1
  obtain ⟨out, o1, o2⟩ := read_sets (p := p) (all := d.sets ++ layerSets p.layer (d.points.map PointData.x)) h h1 (by
      intro s hs
      rcases List.mem_append.1 hs with hs | hs
      · exact hrange s hs
      · have := layer_range hs
        rw [List.length_map, h.points] at this
        exact this) (by
      intro s hs
      rcases List.mem_append.1 hs with hs | hs
      · exact h.setNamed s hs
      · have : s.1 ∈ (layerSets p.layer (d.points.map PointData.x)).map Prod.fst := List.mem_map_of_mem hs
        rw [layer_names] at this
        split_ifs at this
        · simp at this
        · intro h0
          rw [h0] at this
          revert this
          decide) (by
      rw [List.map_append, layer_names]
      by_cases hl : p.layer = none
      · rw [if_pos hl, List.append_nil]
        exact h.setNames.imp fun h => ne_of_lt h
      · rw [if_neg hl]
        refine List.nodup_append.2 ⟨h.setNames.imp fun h => ne_of_lt h, by decide, ?_⟩
        intro a ha b hb hab
        subst hab
        obtain ⟨s, hs, rfl⟩ := List.mem_map.1 ha
        exact hclash hl s hs hb)
  refine ⟨⟨d.order, s.points, s.blocks.insertionSort byName, out.insertionSort byName⟩, ?_, rfl, ?_, s4, s3, out, o2, rfl⟩
  · rw [readMesh, chooseMap_succ]
    simp only [Outcome.ok_bind]
    rw [chooseMap_succ]
    simp only [Outcome.ok_bind]
    rw [s1]
    simp only [Outcome.ok_bind]
    rw [o1]
    rfl
  · show s.blocks.insertionSort byName = d.blocks
    rw [s2]
    exact sorted_of_lt h.blockNames

end Verif.Convert
