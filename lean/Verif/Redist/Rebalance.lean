import Verif.Redist.Import

/-! Helper lemmas: scattering to ghosts and rebalancing. -/

namespace Verif.Redist

open Verif

variable {α : Type}

theorem importAll_val (pick : Nat → Nat → Nat) (srcs ts : DistMV α) (p c : Nat) (t : MultiVec α)
    (ht : ts[p]? = some t) (hwf : t.map.WF) (hc : c < t.cols.length)
    (H : ∀ gid ∈ t.map.gids, ∃ s v, HasSource srcs t.map (pick p gid) c gid s v) :
    ∃ w, (importAll pick srcs ts)[p]? = some (importMV (pick p) srcs t) ∧
      (importMV (pick p) srcs t).cols[c]? = some w ∧ w.length = t.map.numPoints ∧
      ∀ gid ∈ t.map.gids, ∀ i, val (importAll pick srcs ts) p c gid i
        = val srcs (pick p gid) c gid i := by
  have e1 : (importAll pick srcs ts)[p]? = some (importMV (pick p) srcs t) := by
    unfold importAll
    rw [List.getElem?_mapIdx, ht]; rfl
  have e2 : (importMV (pick p) srcs t).cols[c]? =
      some (importColumn (pick p) srcs c t.map t.cols[c]) := by
    unfold importMV
    simp only
    rw [List.getElem?_mapIdx, List.getElem?_eq_getElem hc]; rfl
  obtain ⟨hl, hv⟩ := importColumn_spec (pick p) srcs c t.map hwf t.cols[c] H
  refine ⟨_, e1, e2, hl, ?_⟩
  intro gid hg i
  obtain ⟨s, v, hs⟩ := H gid hg
  unfold val
  rw [e1, hs.1]
  simp only [Option.bind_some]
  rw [e2, hs.2.2.2.1]
  simp only [Option.bind_some]
  exact hv gid hg s v hs i

theorem importAll_length (pick : Nat → Nat → Nat) (srcs ts : DistMV α) :
    (importAll pick srcs ts).length = ts.length := by simp [importAll]

theorem ownedPart_spec [Zero α] (es : Nat) (g o : List Nat) (mv r : MultiVec α)
    (hm : mv.map = BlockMap.const o es) (hcols : ∀ c ∈ mv.cols, c.length = o.length * es)
    (hsub : ∀ x ∈ g, x ∈ o)
    (h : ownedPart es (BlockMap.const g es) mv = .ok r) :
    r.map = BlockMap.const g es ∧ r.cols.length = mv.cols.length ∧
      (∀ c ∈ r.cols, c.length = g.length * es) ∧
      ∀ (c : Nat) (w v : List α), r.cols[c]? = some w → mv.cols[c]? = some v → ∀ x ∈ g, ∀ i,
        entry r.map w x i = entry mv.map v x i := by
  unfold ownedPart at h
  split at h <;> try cases h
  rename_i cs hcs
  rw [allOk_iff] at hcs
  have hl := hcs.length_eq
  have key : ∀ v w, v ∈ mv.cols →
      gatherOwned es mv.map v 0 (BlockMap.const g es).gids
        (List.replicate (BlockMap.const g es).numPoints 0) = .ok w →
      w.length = g.length * es ∧ ∀ x ∈ g, ∀ i,
        entry (BlockMap.const g es) w x i = entry mv.map v x i := by
    intro v w hv hw
    rw [hm] at hw
    obtain ⟨t, e, lt, -, vt⟩ := gatherOwned_spec es o v (hcols v hv) 0 g
      (List.replicate (BlockMap.const g es).numPoints 0) hsub (by simp [const_numPoints])
    have : (BlockMap.const g es).gids = g := rfl
    rw [this, e] at hw
    cases hw
    refine ⟨by rw [lt, List.length_replicate, const_numPoints], ?_⟩
    intro x hx i
    rw [hm]
    by_cases hi : i < es
    · rw [const_entry g es _ x i hx hi, const_entry o es _ x i (hsub x hx) hi]
      have hlt := List.idxOf_lt_length_of_mem hx
      have := vt (g.idxOf x) hlt i hi
      rw [Nat.zero_add, List.getElem_idxOf] at this
      exact this
    · have none : ∀ (gg : List Nat) (u : List α), entry (BlockMap.const gg es) u x i = none := by
        intro gg u
        unfold entry
        rw [if_neg]
        rintro ⟨h1, h2⟩
        apply hi
        have h1' : x ∈ gg := h1
        have := List.idxOf_lt_length_of_mem h1'
        have e : (BlockMap.const gg es).sizes.getD ((BlockMap.const gg es).gids.idxOf x) 0 = es := by
          simp only [BlockMap.const]
          rw [List.getD_eq_getElem?_getD, List.getElem?_map, List.getElem?_eq_getElem this]; rfl
        omega
      rw [none, none]
  refine ⟨rfl, hl.symm, ?_, ?_⟩
  · intro c hc
    obtain ⟨k, hk, rfl⟩ := List.getElem_of_mem hc
    rw [List.forall₂_iff_get] at hcs
    exact (key _ _ (List.getElem_mem _) (hcs.2 k (by simp only at hk; omega) hk)).1
  · intro c w v hw hv x hx i
    rw [List.forall₂_iff_get] at hcs
    obtain ⟨h1, rfl⟩ := List.getElem?_eq_some_iff.1 hw
    obtain ⟨h2, rfl⟩ := List.getElem?_eq_some_iff.1 hv
    exact (key _ _ (List.getElem_mem _) (hcs.2 c h2 h1)).2 x hx i

theorem ownedMapFor_const (g : List Nat) (es : Nat) :
    ownedMapFor (BlockMap.const g 1) (BlockMap.const g 3) es = BlockMap.const g es := by
  unfold ownedMapFor
  split_ifs with h1 h2
  · rw [h1]
  · rw [h2]
  · rfl

/-- After scattering, every holder of a point has the owner's values. -/
theorem scatterSlot_spec [Zero α] (pick : Nat → Nat → Nat) (es n : Nat) (own ovl : List (List Nat))
    (hO : Ownership own ovl)
    (hpick : ∀ (p : Nat) (o : List Nat), ovl[p]? = some o → ∀ x ∈ o,
      ∃ g, own[pick p x]? = some g ∧ x ∈ g)
    (ov ov' : DistMV α) (hs : Shape es ovl n ov)
    (h : scatterSlot pick es (own.map fun g => BlockMap.const g es) ov = .ok ov') :
    Shape es ovl n ov' ∧ ∀ (p q : Nat) (o g : List Nat), ovl[p]? = some o → own[q]? = some g →
      ∀ x ∈ o, x ∈ g → ∀ c i, c < n → val ov' p c x i = val ov q c x i := by
  unfold scatterSlot at h
  split at h <;> try cases h
  rename_i os hos
  rw [allOk_iff] at hos
  have hlos := hos.length_eq
  rw [List.forall₂_iff_get] at hos
  have hlen : os.length = own.length := by
    rw [← hlos]; simp [hs.1, hO.ranks]
  -- the owned parts
  have hos' : ∀ (q : Nat) (g : List Nat), own[q]? = some g → ∃ r mv, os[q]? = some r ∧ ov[q]? = some mv ∧
      r.map = BlockMap.const g es ∧ r.cols.length = n ∧ mv.cols.length = n ∧
      (∀ c ∈ r.cols, c.length = g.length * es) ∧
      ∀ (c : Nat) (w v : List α), r.cols[c]? = some w → mv.cols[c]? = some v → ∀ x ∈ g, ∀ i,
        entry r.map w x i = entry mv.map v x i := by
    intro q g hg
    obtain ⟨hq, hgq⟩ := List.getElem?_eq_some_iff.1 hg
    have ho : ovl[q]? = some (ovl[q]'(by have := hO.ranks; omega)) := List.getElem?_eq_getElem _
    obtain ⟨mv, hmv, h1, h2, h3⟩ := hs.2 q _ ho
    have hlt : q < os.length := by omega
    have := hos.2 q (by omega) hlt
    have e : ((own.map fun g => BlockMap.const g es).zip ov).get ⟨q, by omega⟩ =
        (BlockMap.const g es, mv) := by
      obtain ⟨hq', e'⟩ := List.getElem?_eq_some_iff.1 hmv
      simp [List.get_eq_getElem, List.getElem_zip, hgq, e']
    rw [e] at this
    simp only at this
    obtain ⟨a1, a2, a3, a4⟩ := ownedPart_spec es g _ mv _ h1 h3
      (hO.held q g _ hg ho) this
    exact ⟨_, mv, List.getElem?_eq_getElem hlt, hmv, a1, by rw [← h2, ← a2]; rfl, h2, a3, a4⟩
  -- sources for the import
  have hsrc : ∀ (p : Nat) (o : List Nat) (mv : MultiVec α), ovl[p]? = some o → ov[p]? = some mv →
      mv.map = BlockMap.const o es → ∀ c, c < n → ∀ x ∈ mv.map.gids,
        ∃ s v, HasSource os mv.map (pick p x) c x s v := by
    intro p o mv ho hmv hm c hc x hx
    rw [hm] at hx
    have hx : x ∈ o := hx
    obtain ⟨g, hg, hxg⟩ := hpick p o ho x hx
    obtain ⟨r, mvq, hr, -, h1, h2, -, h3, -⟩ := hos' _ g hg
    have hcl : c < r.cols.length := by omega
    refine ⟨r, r.cols[c], hr, ⟨?_, ?_⟩, ?_, List.getElem?_eq_getElem hcl, ?_⟩
    · rw [h1]; exact const_WF (hO.nodupOwn g (List.mem_of_getElem? hg)) _
    · intro c' hc'; rw [h1, const_numPoints]; exact h3 c' hc'
    · rw [h1]; exact hxg
    · rw [h1, hm, const_size, const_size, if_pos hxg, if_pos hx]
  refine ⟨⟨by rw [importAll_length]; exact hs.1, ?_⟩, ?_⟩
  · intro p o ho
    obtain ⟨mv, hmv, h1, h2, h3⟩ := hs.2 p o ho
    refine ⟨importMV (pick p) os mv, ?_, by rw [← h1]; rfl, by simp [importMV, h2], ?_⟩
    · unfold importAll; rw [List.getElem?_mapIdx, hmv]; rfl
    · intro c hc
      obtain ⟨k, hk, rfl⟩ := List.getElem_of_mem hc
      have hk' : k < mv.cols.length := by simpa [importMV] using hk
      obtain ⟨w, -, e2, e3, -⟩ := importAll_val pick os ov p k mv hmv
        (by rw [h1]; exact const_WF (hO.nodupOvl o (List.mem_of_getElem? ho)) _) hk'
        (hsrc p o mv ho hmv h1 k (by omega))
      rw [List.getElem?_eq_getElem hk] at e2
      rw [Option.some.inj e2, e3, h1, const_numPoints]
  · intro p q o g ho hg x hx hxg c i hc
    obtain ⟨mv, hmv, h1, h2, h3⟩ := hs.2 p o ho
    obtain ⟨w, -, -, -, e4⟩ := importAll_val pick os ov p c mv hmv
        (by rw [h1]; exact const_WF (hO.nodupOvl o (List.mem_of_getElem? ho)) _) (by omega)
        (hsrc p o mv ho hmv h1 c hc)
    rw [e4 x (by rw [h1]; exact hx) i]
    obtain ⟨g', hg', hxg'⟩ := hpick p o ho x hx
    have hq : pick p x = q := hO.unique _ _ _ _ x hg' hg hxg' hxg
    rw [hq]
    obtain ⟨r, mvq, hr, hmvq, b1, b2, b3, -, b5⟩ := hos' q g hg
    unfold val
    rw [hr, hmvq]
    simp only [Option.bind_some]
    have l1 : c < r.cols.length := by omega
    have l2 : c < mvq.cols.length := by omega
    rw [List.getElem?_eq_getElem l1, List.getElem?_eq_getElem l2]
    simp only [Option.bind_some]
    exact b5 c _ _ (List.getElem?_eq_getElem l1) (List.getElem?_eq_getElem l2) x hxg i

theorem scatterSlots_spec [Zero α] (pick : Nat → Nat → Nat) (own : List (List Nat)) (es : Nat)
    (ss ss' : List (Option (DistMV α)))
    (h : scatterSlots pick (own.map fun g => BlockMap.const g 1)
      (own.map fun g => BlockMap.const g 3) es ss = .ok ss') :
    ss'.length = ss.length ∧ ∀ k, (ss[k]? = some none → ss'[k]? = some none) ∧
      ∀ ov, ss[k]? = some (some ov) → ∃ ov', ss'[k]? = some (some ov') ∧
        scatterSlot pick (es + k) (own.map fun g => BlockMap.const g (es + k)) ov = .ok ov' := by
  induction ss generalizing es ss' with
  | nil => simp only [scatterSlots] at h; cases h; simp
  | cons s ss ih =>
    cases s with
    | none =>
      simp only [scatterSlots] at h
      split at h <;> try cases h
      rename_i r hr
      obtain ⟨h1, h2⟩ := ih (es + 1) r hr
      refine ⟨by simp [h1], ?_⟩
      intro k
      cases k with
      | zero => simp
      | succ k =>
        simp only [List.getElem?_cons_succ]
        have := h2 k
        rw [show es + 1 + k = es + (k + 1) by omega] at this
        exact this
    | some ov =>
      simp only [scatterSlots] at h
      split at h <;> try cases h
      rename_i ov' hov
      split at h <;> try cases h
      rename_i r hr
      obtain ⟨h1, h2⟩ := ih (es + 1) r hr
      refine ⟨by simp [h1], ?_⟩
      intro k
      cases k with
      | zero =>
        simp only [List.getElem?_cons_zero, Option.some.injEq, Nat.add_zero]
        refine ⟨by simp, ?_⟩
        rintro ov1 rfl
        refine ⟨ov', rfl, ?_⟩
        have e : ((own.map fun g => BlockMap.const g 1).zip (own.map fun g => BlockMap.const g 3)).map
            (fun p => ownedMapFor p.1 p.2 es) = own.map fun g => BlockMap.const g es := by
          rw [List.zip_map', List.map_map]
          apply List.map_congr_left
          intro g _
          exact ownedMapFor_const g es
        rw [e] at hov
        exact hov
      | succ k =>
        simp only [List.getElem?_cons_succ]
        have := h2 k
        rw [show es + 1 + k = es + (k + 1) by omega] at this
        exact this

open Verif.Field

theorem newMapFor_eq {m : DMaps} {own ovl : List (List Nat)} (hm : PointMaps m own ovl)
    {len : Length} {d : Nat} (hd : variableDimension len = .ok d) :
    newMapFor m len = .ok (ovl.map fun g => BlockMap.const g d) := by
  unfold newMapFor
  split
  · cases hd; rw [hm.overlapScalar]
  · cases hd; rw [hm.overlapVector]
  · rw [hd]
    simp only
    rw [hm.overlapScalar, List.map_map]; rfl

theorem rebalancePoints_spec [Zero α] (pick : Nat → Nat → Nat) (m : DMaps)
    {own ovl : List (List Nat)} (hm : PointMaps m own ovl) (old : List (Option (DistMV α)))
    (pts : List (Length × List Nat)) (acc r : List (Option (DistMV α)))
    (h : rebalancePoints pick m old pts acc = .ok r) :
    (∀ (k : Nat) (x : DistMV α), acc[k]? = some (some x) → r[k]? = some (some x)) ∧
    ∀ len ids, (len, ids) ∈ pts → ∃ d ov, variableDimension len = .ok d ∧
      old[d - 1]? = some (some ov) ∧
      r[d - 1]? = some (some (importAll pick ov
        (ovl.map fun g => MultiVec.zeros (BlockMap.const g d) ids.length))) := by
  induction pts generalizing acc with
  | nil => simp only [rebalancePoints] at h; cases h; simp
  | cons e es ih =>
    obtain ⟨len, ids⟩ := e
    simp only [rebalancePoints] at h
    split at h <;> try cases h
    rename_i maps d hmaps hd
    rw [newMapFor_eq hm hd] at hmaps
    cases hmaps
    split_ifs at h with hids
    split at h <;> try cases h
    rename_i ov hacc hold
    obtain ⟨i1, i2⟩ := ih _ h
    have hlt := (List.getElem?_eq_some_iff.1 hacc).1
    constructor
    · intro k x hk
      apply i1
      rw [List.getElem?_set_ne]
      · exact hk
      · rintro rfl; rw [hacc] at hk; cases hk
    · intro len' ids' hmem
      rcases List.mem_cons.1 hmem with he | hmem
      · cases he
        refine ⟨d, ov, hd, hold, ?_⟩
        apply i1
        rw [List.getElem?_set_self hlt, List.map_map]
        rfl
      · exact i2 len' ids' hmem

/-- What processor `p` reads for a field in one distributed state. -/
def stateVal (pts : List (Length × List Nat)) (bonds : List Nat) (st : DState α) (p f gid i : Nat) :
    Option α :=
  ((st.onRank p).column pts bonds f).bind fun mv => entry mv.1 mv.2 gid i

theorem stateVal_point {pts : List (Length × List Nat)} {bonds : List Nat} {st : DState α}
    {f slot c : Nat} (hf : pointColumn pts f = some (slot, c)) {mv : DistMV α}
    (hs : st.pointData[slot]? = some (some mv)) (p gid i : Nat) :
    stateVal pts bonds st p f gid i = val mv p c gid i := by
  unfold stateVal VState.column DState.onRank val
  simp only [hf, List.getElem?_map, hs, Option.map_some, Option.join_some, Option.bind_some]
  cases mv[p]? with
  | none => rfl
  | some v =>
    simp only [Option.bind_some]
    cases v.cols[c]? <;> rfl

theorem stateVal_bond {pts : List (Length × List Nat)} {bonds : List Nat} {st : DState α}
    {f c : Nat} (hp : pointColumn pts f = none) (hf : columnOf bonds f = some c) {mv : DistMV α}
    (hs : st.bondData = some mv) (p gid i : Nat) :
    stateVal pts bonds st p f gid i = val mv p c gid i := by
  unfold stateVal VState.column DState.onRank val
  simp only [hp, hf, hs, Option.bind_some]
  cases mv[p]? with
  | none => rfl
  | some v =>
    simp only [Option.bind_some]
    cases v.cols[c]? <;> rfl

theorem columnOf_mem {ids : List Nat} {f : Nat} (h : f ∈ ids) :
    ∃ c, columnOf ids f = some c ∧ c < ids.length := by
  refine ⟨(sortIds ids).idxOf f, if_pos h, ?_⟩
  rw [← length_sortIds]
  exact List.idxOf_lt_length_of_mem (mem_sortIds.2 h)

theorem pointColumn_of_mem {pts : List (Length × List Nat)} (hn : (pts.flatMap Prod.snd).Nodup)
    {len : Length} {ids : List Nat} (h : (len, ids) ∈ pts) {f : Nat} (hf : f ∈ ids) {d : Nat}
    (hd : variableDimension len = .ok d) :
    ∃ c, pointColumn pts f = some (d - 1, c) ∧ c < ids.length := by
  obtain ⟨c, hc, hlt⟩ := columnOf_mem hf
  refine ⟨c, ?_, hlt⟩
  induction pts with
  | nil => cases h
  | cons e es ih =>
    obtain ⟨len', ids'⟩ := e
    rw [List.flatMap_cons, List.nodup_append] at hn
    simp only [pointColumn]
    rcases List.mem_cons.1 h with he | h
    · cases he
      rw [hc, hd]
    · have : columnOf ids' f = none := by
        unfold columnOf
        rw [if_neg]
        intro hf'
        exact hn.2.2 f hf' f (List.mem_flatMap.2 ⟨_, h, hf⟩) rfl
      rw [this]
      exact ih hn.2.1 h

theorem pointColumn_none {pts : List (Length × List Nat)} {f : Nat}
    (h : f ∉ pts.flatMap Prod.snd) : pointColumn pts f = none := by
  induction pts with
  | nil => rfl
  | cons e es ih =>
    obtain ⟨len, ids⟩ := e
    rw [List.flatMap_cons, List.mem_append, not_or] at h
    simp only [pointColumn]
    have : columnOf ids f = none := by unfold columnOf; rw [if_neg h.1]
    rw [this]
    exact ih h.2

theorem zeros_shape [Zero α] (ovl : List (List Nat)) (d n : Nat) :
    Shape d ovl n (ovl.map fun g => (MultiVec.zeros (BlockMap.const g d) n : MultiVec α)) := by
  refine ⟨by simp, ?_⟩
  intro p g hg
  refine ⟨MultiVec.zeros (BlockMap.const g d) n, by rw [List.getElem?_map, hg]; rfl, rfl, ?_, ?_⟩
  · simp [MultiVec.zeros]
  · intro c hc
    simp only [MultiVec.zeros, List.mem_replicate] at hc
    rw [hc.2, List.length_replicate, const_numPoints]

theorem shape_val_some {es n : Nat} {ovl : List (List Nat)} {d : DistMV α} (hs : Shape es ovl n d)
    {p : Nat} {o : List Nat} (ho : ovl[p]? = some o) {x : Nat} (hx : x ∈ o) {c i : Nat} (hc : c < n)
    (hi : i < es) : ∃ y, val d p c x i = some y := by
  obtain ⟨mv, h1, h2, h3, h4⟩ := hs.2 p o ho
  unfold val
  have hl : c < mv.cols.length := by omega
  rw [h1]
  simp only [Option.bind_some]
  rw [List.getElem?_eq_getElem hl]
  simp only [Option.bind_some]
  rw [h2, const_entry o es _ x i hx hi]
  have hidx := List.idxOf_lt_length_of_mem hx
  have hlen := h4 _ (List.getElem_mem hl)
  have : o.idxOf x * es + i < mv.cols[c].length := by
    rw [hlen]
    calc o.idxOf x * es + i < o.idxOf x * es + es := by omega
      _ = (o.idxOf x + 1) * es := by ring
      _ ≤ o.length * es := Nat.mul_le_mul_right _ hidx
  exact ⟨_, List.getElem?_eq_getElem this⟩

/-- Points of one state: the new holder reads what the old owner had. -/
theorem state_points [Zero α] {ch : Choice} {own ovl newOwn newOvl : List (List Nat)}
    {oldMaps new : DMaps} (hO : Ownership own ovl) (hOld : PointMaps oldMaps own ovl)
    (hNew : PointMaps new newOwn newOvl)
    (hnd : ∀ o ∈ newOvl, o.Nodup) (hch : ch.Valid own ovl newOvl oldMaps.ownedBond)
    {pts : List (Length × List Nat)} {bonds : List Nat} (hn : (pts.flatMap Prod.snd ++ bonds).Nodup)
    {st s1 : DState α} {r : Option (DState α)} (hst : StateShape pts bonds ovl oldMaps.ownedBond st)
    (h1 : scatterState ch.ghost oldMaps.ownedScalar oldMaps.ownedVector (some st) = .ok s1)
    (h2 : rebalanceState ch new pts bonds (some s1) = .ok r)
    {len : Length} {ids : List Nat} (hmem : (len, ids) ∈ pts) {f : Nat} (hf : f ∈ ids) {d : Nat}
    (hd : variableDimension len = .ok d) {p : Nat} {o : List Nat} (ho : newOvl[p]? = some o)
    {x : Nat} (hx : x ∈ o) {q : Nat} {g : List Nat} (hg : own[q]? = some g) (hxg : x ∈ g)
    {i : Nat} (hi : i < d) :
    ∃ r', r = some r' ∧ ∃ y, stateVal pts bonds st q f x i = some y ∧
      stateVal pts bonds r' p f x i = some y := by
  obtain ⟨c, hcol, hclt⟩ := pointColumn_of_mem (List.nodup_append.1 hn).1 hmem hf hd
  obtain ⟨mv, hslot, hshape⟩ := hst.point len ids d hmem hd
  have hd0 : 1 ≤ d := by omega
  -- scatter
  simp only [scatterState] at h1
  split at h1 <;> try cases h1
  rename_i ps hps
  rw [hOld.ownedScalar, hOld.ownedVector] at hps
  obtain ⟨-, hsc⟩ := scatterSlots_spec ch.ghost own 1 _ _ hps
  obtain ⟨ov', hov', hscat⟩ := (hsc (d - 1)).2 mv hslot
  rw [show 1 + (d - 1) = d by omega] at hscat
  obtain ⟨hshape', hval⟩ := scatterSlot_spec ch.ghost d ids.length own ovl hO hch.ghost mv ov' hshape hscat
  -- rebalance
  unfold rebalanceState at h2
  simp only at h2
  split at h2 <;> try cases h2
  rename_i ps' hps'
  obtain ⟨-, hreb⟩ := rebalancePoints_spec ch.point new hNew _ _ _ _ hps'
  obtain ⟨d', ov, hd', hold, hr⟩ := hreb len ids hmem
  rw [hd] at hd'
  cases hd'
  rw [hov'] at hold
  cases hold
  -- the imported value
  obtain ⟨t, ht, t1, t2, t3⟩ := (zeros_shape (α := α) newOvl d ids.length).2 p o ho
  obtain ⟨w, -, -, -, e4⟩ := importAll_val ch.point ov' _ p c t ht
    (by rw [t1]; exact const_WF (hnd o (List.mem_of_getElem? ho)) _) (by omega) (by
      intro y hy
      rw [t1] at hy
      have hy : y ∈ o := hy
      obtain ⟨g', hg', hyg'⟩ := hch.point p o ho y hy
      obtain ⟨mv', m1, m2, m3, m4⟩ := hshape'.2 _ g' hg'
      have hl : c < mv'.cols.length := by omega
      refine ⟨mv', mv'.cols[c], m1, ⟨?_, ?_⟩, ?_, List.getElem?_eq_getElem hl, ?_⟩
      · rw [m2]; exact const_WF (hO.nodupOvl g' (List.mem_of_getElem? hg')) _
      · intro c' hc'; rw [m2, const_numPoints]; exact m4 c' hc'
      · rw [m2]; exact hyg'
      · rw [m2, t1, const_size, const_size, if_pos hyg', if_pos hy])
  obtain ⟨g', hg', hxg'⟩ := hch.point p o ho x hx
  have v1 := e4 x (by rw [t1]; exact hx) i
  have v2 := hval _ q g' g hg' hg x hxg' hxg c i hclt
  have hown : ∃ oq, ovl[q]? = some oq ∧ x ∈ oq := by
    have hq := (List.getElem?_eq_some_iff.1 hg).1
    have := hO.ranks
    have ho' : ovl[q]? = some (ovl[q]'(by omega)) := List.getElem?_eq_getElem _
    exact ⟨_, ho', hO.held q g _ hg ho' x hxg⟩
  obtain ⟨oq, hoq, hxoq⟩ := hown
  obtain ⟨y, hy⟩ := shape_val_some hshape hoq hxoq hclt hi
  have hfin : ∀ r' : DState α, r'.pointData = ps' → ∃ y, stateVal pts bonds st q f x i = some y ∧
      stateVal pts bonds r' p f x i = some y := by
    intro r' hr'
    refine ⟨y, by rw [stateVal_point hcol hslot]; exact hy, ?_⟩
    rw [stateVal_point hcol (mv := importAll ch.point ov' (newOvl.map fun g => MultiVec.zeros (BlockMap.const g d) ids.length))
      (by rw [hr']; exact hr), v1, v2, hy]
  split_ifs at h2 with hb
  · cases h2
    exact ⟨_, rfl, hfin _ rfl⟩
  · split at h2 <;> try cases h2
    exact ⟨_, rfl, hfin _ rfl⟩

/-- Bonds of one state. -/
theorem state_bonds [Zero α] {ch : Choice} {own ovl newOvl : List (List Nat)}
    {oldMaps new : DMaps}
    (hch : ch.Valid own ovl newOvl oldMaps.ownedBond)
    (huniq : ∀ (q q' : Nat) (m m' : BlockMap) (x : Nat), oldMaps.ownedBond[q]? = some m →
      oldMaps.ownedBond[q']? = some m' → x ∈ m.gids → x ∈ m'.gids → q = q')
    {pts : List (Length × List Nat)} {bonds : List Nat} (hn : (pts.flatMap Prod.snd ++ bonds).Nodup)
    {st s1 : DState α} {r : Option (DState α)} (hst : StateShape pts bonds ovl oldMaps.ownedBond st)
    (h1 : scatterState ch.ghost oldMaps.ownedScalar oldMaps.ownedVector (some st) = .ok s1)
    (h2 : rebalanceState ch new pts bonds (some s1) = .ok r)
    {f : Nat} (hf : f ∈ bonds) {p : Nat} {m : BlockMap} (hm : new.ownedBond[p]? = some m)
    (hwf : m.WF) (hcov : ∀ y ∈ m.gids, ∃ mo ∈ oldMaps.ownedBond, y ∈ mo.gids ∧
      sizeOf? mo y = sizeOf? m y)
    {x : Nat} (hx : x ∈ m.gids) {q : Nat} {mq : BlockMap} (hq : oldMaps.ownedBond[q]? = some mq)
    (hxq : x ∈ mq.gids) {i k : Nat} (hk : sizeOf? m x = some k) (hi : i < k) :
    ∃ r', r = some r' ∧ ∃ y, stateVal pts bonds st q f x i = some y ∧
      stateVal pts bonds r' p f x i = some y := by
  obtain ⟨c, hc, hclt⟩ := columnOf_mem hf
  have hpn : pointColumn pts f = none := by
    apply pointColumn_none
    intro hh
    exact (List.nodup_append.1 hn).2.2 f hh f hf rfl
  have hbne : bonds ≠ [] := by rintro rfl; cases hf
  obtain ⟨mv, hmv, hshape⟩ := hst.bond hbne
  simp only [scatterState] at h1
  split at h1 <;> try cases h1
  rename_i ps hps
  unfold rebalanceState at h2
  simp only at h2
  split at h2 <;> try cases h2
  rename_i ps' hps'
  rw [if_neg hbne, hmv] at h2
  cases h2
  refine ⟨_, rfl, ?_⟩
  rw [stateVal_bond hpn hc hmv, stateVal_bond hpn hc rfl]
  have ht : (new.ownedBond.map fun b => (MultiVec.zeros b bonds.length : MultiVec α))[p]? =
      some (MultiVec.zeros m bonds.length) := by rw [List.getElem?_map, hm]; rfl
  have hidx : ∀ y ∈ m.gids, ∃ m', oldMaps.ownedBond[ch.bond p y]? = some m' ∧ y ∈ m'.gids ∧
      sizeOf? m' y = sizeOf? m y := by
    intro y hy
    obtain ⟨mo, hmo, hymo, hsz⟩ := hcov y hy
    obtain ⟨m', hm', hym'⟩ := hch.bond p y ⟨mo, hmo, hymo⟩
    obtain ⟨j, hj, rfl⟩ := List.getElem_of_mem hmo
    have := huniq _ _ _ _ y hm' (List.getElem?_eq_getElem hj) hym' hymo
    rw [this, List.getElem?_eq_getElem hj] at hm'
    cases hm'
    exact ⟨_, by rw [this]; exact List.getElem?_eq_getElem hj, hymo, hsz⟩
  obtain ⟨w, -, -, -, e4⟩ := importAll_val ch.bond mv _ p c _ ht hwf
    (by simp [MultiVec.zeros]; exact hclt) (by
      intro y hy
      obtain ⟨m', hm', hym', hsz⟩ := hidx y hy
      obtain ⟨mv', b1, b2, b3, b4, b5⟩ := hshape.2 _ m' hm'
      have hl : c < mv'.cols.length := by omega
      refine ⟨mv', mv'.cols[c], b1, ⟨by rw [b2]; exact b3, ?_⟩, by rw [b2]; exact hym',
        List.getElem?_eq_getElem hl, ?_⟩
      · intro c' hc'; rw [b2]; exact b5 c' hc'
      · rw [b2]; exact hsz)
  have v1 := e4 x hx i
  obtain ⟨m', hm', hxm', hsz⟩ := hidx x hx
  have hqq : ch.bond p x = q := huniq _ _ _ _ x hm' hq hxm' hxq
  rw [hqq] at v1 hm'
  rw [v1]
  obtain ⟨mv', b1, b2, b3, b4, b5⟩ := hshape.2 q m' hm'
  have hl : c < mv'.cols.length := by omega
  unfold val
  rw [b1]
  simp only [Option.bind_some]
  rw [List.getElem?_eq_getElem hl]
  simp only [Option.bind_some]
  rw [b2]
  have hsi : m'.gids.idxOf x < m'.sizes.length := by
    rw [b3.len]; exact List.idxOf_lt_length_of_mem hxm'
  have hb := block_le m' _ hsi
  rw [hk] at hsz
  unfold sizeOf? at hsz
  rw [if_pos hxm', List.getElem?_eq_getElem hsi] at hsz
  have hsz := Option.some.inj hsz
  have hlen := b5 _ (List.getElem_mem hl)
  have : m'.firstPoint (m'.gids.idxOf x) + i < mv'.cols[c].length := by omega
  unfold entry
  rw [if_pos ⟨hxm', by rw [List.getD_eq_getElem?_getD, List.getElem?_eq_getElem hsi]; simpa [hsz] using hi⟩]
  exact ⟨_, List.getElem?_eq_getElem this, List.getElem?_eq_getElem this⟩

end Verif.Redist
