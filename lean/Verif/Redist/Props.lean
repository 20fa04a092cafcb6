import Verif.Redist.Rebalance

/-! # Properties C07 and C08 -/

namespace Verif.Redist

open Verif Verif.Field

variable {α : Type}

/-! ## C07 -/

/-- **C07, one multivector.** Copying succeeds exactly when both sides have the same number of
columns and the source holds every element of the target with the same number of entries; then
column by column every element of the target has the source's entries for the same global id.
Otherwise an exception is raised; nothing is ever read or written out of range. -/
theorem C07_copy_by_gid (s t : MultiVec α) (hs : s.WF) (ht : t.WF) :
    ((∃ t', copyMultiVec s t = .ok t') ↔ s.cols.length = t.cols.length ∧
      (t.cols ≠ [] → ∀ gid ∈ t.map.gids, gid ∈ s.map.gids ∧ sizeOf? s.map gid = sizeOf? t.map gid)) ∧
    ((¬ ∃ t', copyMultiVec s t = .ok t') → ∃ e, copyMultiVec s t = .fail e) ∧
    (∀ t', copyMultiVec s t = .ok t' → t'.map = t.map ∧ t'.cols.length = t.cols.length ∧
      ∀ (c : Nat) (sv tv : List α), s.cols[c]? = some sv → t'.cols[c]? = some tv →
        ∀ gid ∈ t.map.gids, ∀ i, entry t'.map tv gid i = entry s.map sv gid i) := by
  refine ⟨copyMultiVec_ok_iff s t hs ht, ?_, ?_⟩
  · intro h
    rcases copyMultiVec_fail s t hs ht h with h | h <;> exact ⟨_, h⟩
  · intro t' h
    obtain ⟨h1, -, -, h4, h5⟩ := copyMultiVec_spec s t t' hs ht h
    refine ⟨h1, h4, ?_⟩
    intro c sv tv hc hc' gid hg i
    rw [h1]
    exact (h5 c sv tv hc hc' gid hg).2 i

/-- **C07, data managers.** When a manager's data have been copied from a manager with the same
fields, every field of the target at every step has, for every element the target holds, the
source's entries for the same global id; the target's maps are unchanged. -/
theorem C07_copy_manager (s t t' : VManager α) (hs : s.WF) (ht : t.WF) (hf : SameFields s t)
    (h : copyManager s t = .ok t') (f : Nat) (step : Step) (m : BlockMap) (v : List α)
    (hv : t.data f step = some (m, v)) :
    ∃ ms vs v', s.data f step = some (ms, vs) ∧ t'.data f step = some (m, v') ∧
      ∀ gid ∈ m.gids, gid ∈ ms.gids ∧ ∀ i, entry m v' gid i = entry ms vs gid i := by
  obtain ⟨f1, f2, f3, f4⟩ := hf
  unfold copyManager at h
  split at h <;> try cases h
  rename_i a ha
  split at h <;> try cases h
  rename_i b hb
  split at h <;> try cases h
  rename_i c hc
  have key : ∀ {so to_ t1 : Option (VState α)} {pts bonds}, copyOptState so to_ = .ok t1 →
      (∀ st, so = some st → st.WF) → (∀ st, to_ = some st → st.WF) →
      (to_.bind fun st => st.column pts bonds f) = some (m, v) →
      ∃ ms vs v', (so.bind fun st => st.column pts bonds f) = some (ms, vs) ∧
        (t1.bind fun st => st.column pts bonds f) = some (m, v') ∧
        ∀ gid ∈ m.gids, gid ∈ ms.gids ∧ ∀ i, entry m v' gid i = entry ms vs gid i := by
    intro so to_ t1 pts bonds hcp w1 w2 hv
    rcases copyOptState_spec hcp with ⟨rfl, -⟩ | ⟨sv, tv, tv', rfl, rfl, rfl, hst⟩
    · cases hv
    · exact copyState_spec hst (w1 _ rfl) (w2 _ rfl) hv
  cases step with
  | none =>
    simp only [VManager.data] at hv ⊢
    rw [f1, f2]; exact key ha hs.1 ht.1 hv
  | n =>
    simp only [VManager.data] at hv ⊢
    rw [f3, f4]; exact key hb hs.2.1 ht.2.1 hv
  | np1 =>
    simp only [VManager.data] at hv ⊢
    rw [f3, f4]; exact key hc hs.2.2 ht.2.2 hv
  | undefined => simp [VManager.data] at hv

/-- A source with points 9, 4, 7 and a target with points 4, 9; two vector fields 3 and 8. -/
def demoSource : VManager Int :=
  ⟨[], [], [(.vector, [8, 3])], [5], none,
   some ⟨[none, none, some ⟨BlockMap.const [9, 4, 7] 3, [[1, 2, 3, 4, 5, 6, 7, 8, 9],
      [11, 12, 13, 14, 15, 16, 17, 18, 19]]⟩, none], some ⟨⟨[9, 4], [1, 2]⟩, [[21, 22, 23]]⟩⟩, none⟩

/-- The target of the example, filled with zeros. -/
def demoTarget : VManager Int :=
  ⟨[], [], [(.vector, [8, 3])], [5], none,
   some ⟨[none, none, some ⟨BlockMap.const [4, 9] 3, [[0, 0, 0, 0, 0, 0], [0, 0, 0, 0, 0, 0]]⟩, none],
     some ⟨⟨[4, 9], [2, 1]⟩, [[0, 0, 0]]⟩⟩, none⟩

example : demoSource.WF ∧ demoTarget.WF ∧ SameFields demoSource demoTarget := by
  have w : ∀ (mv : MultiVec Int), decide (mv.map.sizes.length = mv.map.gids.length) = true →
      decide mv.map.gids.Nodup = true →
      (mv.cols.all fun c => decide (c.length = mv.map.numPoints)) = true → mv.WF := by
    intro mv h1 h2 h3
    refine ⟨⟨by simpa using h1, by simpa using h2⟩, ?_⟩
    intro c hc
    rw [List.all_eq_true] at h3
    simpa using h3 c hc
  refine ⟨⟨by simp [demoSource], ?_, by simp [demoSource]⟩,
    ⟨by simp [demoTarget], ?_, by simp [demoTarget]⟩, rfl, rfl, rfl, rfl⟩
  · intro st h
    cases h
    refine ⟨?_, ?_⟩
    · intro mv h; simp at h; subst h; exact w _ rfl rfl rfl
    · intro mv h; cases h; exact w _ rfl rfl rfl
  · intro st h
    cases h
    refine ⟨?_, ?_⟩
    · intro mv h; simp at h; subst h; exact w _ rfl rfl rfl
    · intro mv h; cases h; exact w _ rfl rfl rfl

example : ∃ t', copyManager demoSource demoTarget = .ok t' ∧
    t'.data 8 .n = some (BlockMap.const [4, 9] 3, [14, 15, 16, 11, 12, 13]) ∧
    t'.data 5 .n = some (⟨[4, 9], [2, 1]⟩, [22, 23, 21]) := ⟨_, rfl, rfl, rfl⟩

/-- **C07 needs equal field lists.** Between managers with different fields of the same kind the copy
succeeds and puts the source's data of one field into a different field of the target. -/
theorem C07_copy_mixes_fields : ∃ s t t' : VManager Int, copyManager s t = .ok t' ∧
    s.data 2 .none = none ∧ t'.data 2 .none = s.data 1 .none ∧ t'.data 2 .none ≠ t.data 2 .none := by
  refine ⟨⟨[(.scalar, [1])], [], [], [], some ⟨[some ⟨BlockMap.const [0] 1, [[5]]⟩], none⟩, none, none⟩,
    ⟨[(.scalar, [2])], [], [], [], some ⟨[some ⟨BlockMap.const [0] 1, [[0]]⟩], none⟩, none, none⟩,
    _, rfl, rfl, rfl, by decide⟩

/-! ## C08 -/

theorem value_none (d : DManager α) (p f gid i : Nat) (st : DState α) (h : d.stateNONE = some st) :
    d.value p f .none gid i = stateVal d.statelessPoint d.statelessBond st p f gid i := by
  unfold DManager.value DManager.onRank VManager.data stateVal
  simp only [h, Option.map_some, Option.bind_some]

theorem value_n (d : DManager α) (p f gid i : Nat) (st : DState α) (h : d.stateN = some st) :
    d.value p f .n gid i = stateVal d.statefulPoint d.statefulBond st p f gid i := by
  unfold DManager.value DManager.onRank VManager.data stateVal
  simp only [h, Option.map_some, Option.bind_some]

theorem value_np1 (d : DManager α) (p f gid i : Nat) (st : DState α) (h : d.stateNP1 = some st) :
    d.value p f .np1 gid i = stateVal d.statefulPoint d.statefulBond st p f gid i := by
  unfold DManager.value DManager.onRank VManager.data stateVal
  simp only [h, Option.map_some, Option.bind_some]

theorem rebalance_parts [Zero α] {ch : Choice} {new : DMaps} {d d' : DManager α}
    (h : rebalance ch new d = .ok d') :
    ∃ a b c sa sb sc ra rb rc,
      d.stateNONE = some a ∧ d.stateN = some b ∧ d.stateNP1 = some c ∧
      scatterState ch.ghost d.maps.ownedScalar d.maps.ownedVector (some a) = .ok sa ∧
      scatterState ch.ghost d.maps.ownedScalar d.maps.ownedVector (some b) = .ok sb ∧
      scatterState ch.ghost d.maps.ownedScalar d.maps.ownedVector (some c) = .ok sc ∧
      rebalanceState ch new d.statelessPoint d.statelessBond (some sa) = .ok ra ∧
      rebalanceState ch new d.statefulPoint d.statefulBond (some sb) = .ok rb ∧
      rebalanceState ch new d.statefulPoint d.statefulBond (some sc) = .ok rc ∧
      d' = { d with maps := new, stateNONE := ra, stateN := rb, stateNP1 := rc } := by
  unfold rebalance at h
  split at h <;> try cases h
  rename_i sa h1
  split at h <;> try cases h
  rename_i sb h2
  split at h <;> try cases h
  rename_i sc h3
  split at h <;> try cases h
  rename_i ra h4
  split at h <;> try cases h
  rename_i rb h5
  split at h <;> try cases h
  rename_i rc h6
  cases ha : d.stateNONE with
  | none => rw [ha] at h1; cases h1
  | some a =>
    cases hb : d.stateN with
    | none => rw [hb] at h2; cases h2
    | some b =>
      cases hc : d.stateNP1 with
      | none => rw [hc] at h3; cases h3
      | some c =>
        rw [ha] at h1; rw [hb] at h2; rw [hc] at h3
        exact ⟨a, b, c, sa, sb, sc, ra, rb, rc, rfl, rfl, rfl, h1, h2, h3, h4, h5, h6, rfl⟩

/-- **C08, points.** After a redistribution every processor holds, for every point of its new overlap
map (owned or ghost), for every point field at every step, the entries the owner of that point held
before. -/
theorem C08_points_keep_data [Zero α] (d d' : DManager α) (new : DMaps) (ch : Choice)
    (own ovl newOwn newOvl : List (List Nat)) (hO : Ownership own ovl) (hM : ManagerShape d own ovl)
    (hN : PointMaps new newOwn newOvl) (hnd : ∀ o ∈ newOvl, o.Nodup)
    (hch : ch.Valid own ovl newOvl d.maps.ownedBond) (h : rebalance ch new d = .ok d')
    (s : Step) (f k : Nat) (hf : PointField d s f k)
    (p : Nat) (o : List Nat) (ho : newOvl[p]? = some o) (x : Nat) (hx : x ∈ o)
    (q : Nat) (g : List Nat) (hg : own[q]? = some g) (hxg : x ∈ g) (i : Nat) (hi : i < k) :
    ∃ y, d.value q f s x i = some y ∧ d'.value p f s x i = some y := by
  obtain ⟨a, b, c, sa, sb, sc, ra, rb, rc, ea, eb, ec, h1, h2, h3, h4, h5, h6, rfl⟩ :=
    rebalance_parts h
  obtain ⟨len, ids, hfi, hd, hcase⟩ := hf
  rcases hcase with ⟨rfl, hmem⟩ | ⟨rfl | rfl, hmem⟩
  · obtain ⟨r', hr, y, y1, y2⟩ := state_points hO hM.maps hN hnd hch hM.once (hM.none a ea) h1 h4
      hmem hfi hd ho hx hg hxg hi
    subst hr
    exact ⟨y, by rw [value_none d _ _ _ _ a ea]; exact y1, by rw [value_none _ _ _ _ _ r' rfl]; exact y2⟩
  · obtain ⟨r', hr, y, y1, y2⟩ := state_points hO hM.maps hN hnd hch hM.once' (hM.n b eb) h2 h5
      hmem hfi hd ho hx hg hxg hi
    subst hr
    exact ⟨y, by rw [value_n d _ _ _ _ b eb]; exact y1, by rw [value_n _ _ _ _ _ r' rfl]; exact y2⟩
  · obtain ⟨r', hr, y, y1, y2⟩ := state_points hO hM.maps hN hnd hch hM.once' (hM.np1 c ec) h3 h6
      hmem hfi hd ho hx hg hxg hi
    subst hr
    exact ⟨y, by rw [value_np1 d _ _ _ _ c ec]; exact y1, by rw [value_np1 _ _ _ _ _ r' rfl]; exact y2⟩

/-- **C08, bonds.** After a redistribution every processor holds, for every point of its new bond
map and every bond field at every step, the bond entries held before by the processor that had the
point in its bond map. -/
theorem C08_bonds_keep_data [Zero α] (d d' : DManager α) (new : DMaps) (ch : Choice)
    (own ovl newOvl : List (List Nat)) (hM : ManagerShape d own ovl)
    (hch : ch.Valid own ovl newOvl d.maps.ownedBond)
    (huniq : ∀ (q q' : Nat) (m m' : BlockMap) (x : Nat), d.maps.ownedBond[q]? = some m →
      d.maps.ownedBond[q']? = some m' → x ∈ m.gids → x ∈ m'.gids → q = q')
    (h : rebalance ch new d = .ok d') (s : Step) (f : Nat) (hf : BondField d s f)
    (p : Nat) (m : BlockMap) (hm : new.ownedBond[p]? = some m) (hwf : m.WF)
    (hcov : ∀ y ∈ m.gids, ∃ mo ∈ d.maps.ownedBond, y ∈ mo.gids ∧ sizeOf? mo y = sizeOf? m y)
    (x : Nat) (hx : x ∈ m.gids) (q : Nat) (mq : BlockMap) (hq : d.maps.ownedBond[q]? = some mq)
    (hxq : x ∈ mq.gids) (i k : Nat) (hk : sizeOf? m x = some k) (hi : i < k) :
    ∃ y, d.value q f s x i = some y ∧ d'.value p f s x i = some y := by
  obtain ⟨a, b, c, sa, sb, sc, ra, rb, rc, ea, eb, ec, h1, h2, h3, h4, h5, h6, rfl⟩ :=
    rebalance_parts h
  rcases hf with ⟨rfl, hmem⟩ | ⟨rfl | rfl, hmem⟩
  · obtain ⟨r', hr, y, y1, y2⟩ := state_bonds hch huniq hM.once (hM.none a ea) h1 h4 hmem hm hwf hcov
      hx hq hxq hk hi
    subst hr
    exact ⟨y, by rw [value_none d _ _ _ _ a ea]; exact y1, by rw [value_none _ _ _ _ _ r' rfl]; exact y2⟩
  · obtain ⟨r', hr, y, y1, y2⟩ := state_bonds hch huniq hM.once' (hM.n b eb) h2 h5 hmem hm hwf hcov
      hx hq hxq hk hi
    subst hr
    exact ⟨y, by rw [value_n d _ _ _ _ b eb]; exact y1, by rw [value_n _ _ _ _ _ r' rfl]; exact y2⟩
  · obtain ⟨r', hr, y, y1, y2⟩ := state_bonds hch huniq hM.once' (hM.np1 c ec) h3 h6 hmem hm hwf hcov
      hx hq hxq hk hi
    subst hr
    exact ⟨y, by rw [value_np1 d _ _ _ _ c ec]; exact y1, by rw [value_np1 _ _ _ _ _ r' rfl]; exact y2⟩

/-- Two processors: processor 0 owns 0, 1 and has a ghost of 2; processor 1 owns 2 and has a stale
ghost of 1. -/
def demoOwn : List (List Nat) := [[0, 1], [2]]
def demoOvl : List (List Nat) := [[0, 1, 2], [2, 1]]

/-- Afterwards processor 0 owns 2 with a ghost of 1, processor 1 owns 1, 0. -/
def demoNewOwn : List (List Nat) := [[2], [1, 0]]
def demoNewOvl : List (List Nat) := [[2, 1], [1, 0]]

def demoMaps (own ovl : List (List Nat)) (bond : List BlockMap) : DMaps :=
  ⟨own.map (BlockMap.const · 1), ovl.map (BlockMap.const · 1), own.map (BlockMap.const · 3),
   ovl.map (BlockMap.const · 3), bond⟩

def demoState : DState Int :=
  ⟨[some [⟨BlockMap.const [0, 1, 2] 1, [[10, 11, 99]]⟩, ⟨BlockMap.const [2, 1] 1, [[12, 98]]⟩],
    none, none, none, none, none, none, none, none],
   some [⟨⟨[0, 1], [1, 2]⟩, [[5, 6, 7]]⟩, ⟨⟨[2], [1]⟩, [[8]]⟩]⟩

def demoDist : DManager Int :=
  ⟨[(.scalar, [4])], [3], [(.scalar, [1])], [2],
   demoMaps demoOwn demoOvl [⟨[0, 1], [1, 2]⟩, ⟨[2], [1]⟩],
   some demoState, some demoState, some demoState⟩

def demoNew : DMaps := demoMaps demoNewOwn demoNewOvl [⟨[2], [1]⟩, ⟨[1, 0], [2, 1]⟩]

/-- The choice made for the example: the owner for ghosts and bonds, the ghost holder where
possible. -/
def demoChoice : Choice :=
  ⟨fun _ x => if x = 2 then 1 else 0, fun p x => if x = 1 ∧ p = 1 then 1 else 0,
   fun _ x => if x = 2 then 1 else 0⟩

example : Ownership demoOwn demoOvl := by
  refine ⟨rfl, by decide, by decide, ?_, by decide, ?_⟩
  · intro p g o h1 h2
    match p with
    | 0 => cases h1; cases h2; decide
    | 1 => cases h1; cases h2; decide
    | n + 2 => simp [demoOwn] at h1
  · intro p q g g' x h1 h2 h3 h4
    match p, q with
    | 0, 0 => rfl
    | 1, 1 => rfl
    | 0, 1 => cases h1; cases h2; simp at h3 h4; omega
    | 1, 0 => cases h1; cases h2; simp at h3 h4; omega
    | n + 2, _ => simp [demoOwn] at h1
    | 0, n + 2 => simp [demoOwn] at h2
    | 1, n + 2 => simp [demoOwn] at h2

theorem demoState_shape (a b : Nat) : StateShape [(.scalar, [a])] [b] demoOvl
    [⟨[0, 1], [1, 2]⟩, ⟨[2], [1]⟩] demoState := by
  have h1 : Shape 1 demoOvl 1 [⟨BlockMap.const [0, 1, 2] 1, [[10, 11, (99 : Int)]]⟩,
      ⟨BlockMap.const [2, 1] 1, [[12, 98]]⟩] := by
    refine ⟨rfl, ?_⟩
    intro p g hg
    match p with
    | 0 => cases hg; exact ⟨_, rfl, rfl, rfl, by decide⟩
    | 1 => cases hg; exact ⟨_, rfl, rfl, rfl, by decide⟩
    | n + 2 => simp [demoOvl] at hg
  refine ⟨?_, ?_, ?_⟩
  · intro len ids d hm hd
    simp at hm
    obtain ⟨rfl, rfl⟩ := hm
    cases hd
    exact ⟨_, rfl, h1⟩
  · intro k mv hk
    match k with
    | 0 => cases hk; exact ⟨1, h1⟩
    | 1 | 2 | 3 | 4 | 5 | 6 | 7 | 8 => cases hk
    | n + 9 => simp [demoState] at hk
  · intro _
    refine ⟨_, rfl, rfl, ?_⟩
    intro p m hm
    match p with
    | 0 => cases hm; exact ⟨_, rfl, rfl, ⟨rfl, by decide⟩, rfl, by decide⟩
    | 1 => cases hm; exact ⟨_, rfl, rfl, ⟨rfl, by decide⟩, rfl, by decide⟩
    | n + 2 => simp at hm

example : ManagerShape demoDist demoOwn demoOvl :=
  ⟨⟨rfl, rfl, rfl, rfl⟩, by decide, by decide,
   fun st h => by cases h; exact demoState_shape 4 3,
   fun st h => by cases h; exact demoState_shape 1 2,
   fun st h => by cases h; exact demoState_shape 1 2⟩

example : demoChoice.Valid demoOwn demoOvl demoNewOvl demoDist.maps.ownedBond := by
  refine ⟨?_, ?_, ?_⟩
  · intro p o ho x hx
    match p with
    | 0 =>
      cases ho; simp at hx
      rcases hx with rfl | rfl | rfl
      · exact ⟨_, rfl, by decide⟩
      · exact ⟨_, rfl, by decide⟩
      · exact ⟨_, rfl, by decide⟩
    | 1 =>
      cases ho; simp at hx
      rcases hx with rfl | rfl
      · exact ⟨_, rfl, by decide⟩
      · exact ⟨_, rfl, by decide⟩
    | n + 2 => simp [demoOvl] at ho
  · intro p o ho x hx
    match p with
    | 0 =>
      cases ho; simp at hx
      rcases hx with rfl | rfl
      · exact ⟨_, rfl, by decide⟩
      · exact ⟨_, rfl, by decide⟩
    | 1 =>
      cases ho; simp at hx
      rcases hx with rfl | rfl
      · exact ⟨_, rfl, by decide⟩
      · exact ⟨_, rfl, by decide⟩
    | n + 2 => simp [demoNewOvl] at ho
  · rintro p x ⟨m, hm, hx⟩
    simp [demoDist, demoMaps] at hm
    rcases hm with rfl | rfl
    · simp at hx
      rcases hx with rfl | rfl
      · exact ⟨_, rfl, by decide⟩
      · exact ⟨_, rfl, by decide⟩
    · simp at hx
      subst hx
      exact ⟨_, rfl, by decide⟩

example : ∃ d', rebalance demoChoice demoNew demoDist = .ok d' ∧
    d'.value 0 1 .n 2 0 = some 12 ∧ d'.value 0 1 .n 1 0 = some 11 ∧
    d'.value 1 2 .np1 1 1 = some 7 := ⟨_, rfl, rfl, rfl, rfl⟩

/-- **C08 relies on all three states.** A manager without state-less data (or without two-step data)
dereferences a null state when it is rebalanced. -/
theorem C08_null_state_crashes [Zero α] (ch : Choice) (new : DMaps) (d : DManager α)
    (h : d.stateNONE = none) : rebalance ch new d = .ub := by
  unfold rebalance
  rw [h]; rfl

end Verif.Redist
