import Verif.Setup.Spec
import Verif.Damage.Lemmas
import Verif.Neigh.Props
import Verif.BC.Props
import Mathlib.Tactic.NormNum
import Mathlib.Tactic.Linarith

/-!
# Property C154: points with too few whole bonds are taken out
-/

noncomputable section

namespace Verif.Setup

open Verif Verif.Damage Verif.Mech Verif.Neigh
open scoped Classical

theorem bondSum_congr {d d' : Nat → ℝ} {b k : Nat} (h : ∀ i < k, d (b + i) = d' (b + i)) :
    ((List.range k).map fun i => d (b + i)).sum = ((List.range k).map fun i => d' (b + i)).sum := by
  congr 1
  apply List.map_congr_left
  intro i hi
  exact h i (List.mem_range.1 hi)

theorem interfacePoints_spec (nbs : List (List Nat)) (ids : List Nat) (pre : List Nat) (pos bi : Nat)
    (d dm d' dm' : Nat → ℝ) (set set' : List Nat) (hlen : ids.length = nbs.length) (hpos : pos = pre.length)
    (hnd : ids.Nodup) (h : interfacePoints (pre ++ encode nbs) ids pos bi d dm set = .ok (d', dm', set')) :
    (∀ b < bi, d' b = d b) ∧ (∀ k, k ∉ ids → (k ∈ set' ↔ k ∈ set)) ∧
      ∀ p i ns, ids[p]? = some i → nbs[p]? = some ns → i ∉ set →
        (i ∈ set' ↔ ((List.range ns.length).map fun t => d' (bi + bondPos nbs p t)).sum ≥ (ns.length : ℝ) - 2) := by
  induction nbs generalizing ids pre pos bi d dm set with
  | nil =>
    cases ids with
    | nil =>
      cases h
      exact ⟨fun _ _ => rfl, fun _ _ => Iff.rfl, fun p i ns hp => by simp at hp⟩
    | cons => simp at hlen
  | cons ns nbs ih =>
    cases ids with
    | nil => simp at hlen
    | cons i ids =>
      have hr : readAt (pre ++ encode (ns :: nbs)) pos = .ok ns.length := by
        have : pre ++ encode (ns :: nbs) = pre ++ ns.length :: (ns ++ encode nbs) := by
          simp [encode]
        rw [this]
        exact readAt_mid pre _ _ _ hpos
      have e : pre ++ encode (ns :: nbs) = (pre ++ (ns.length :: ns)) ++ encode nbs := by
        simp [encode]
      rw [List.nodup_cons] at hnd
      rw [interfacePoints, hr] at h
      simp only at h
      have hshift : ∀ p t, bondPos (ns :: nbs) (p + 1) t = ns.length + bondPos nbs p t := by
        intro p t
        simp only [bondPos, List.take_succ_cons, List.map_cons, List.sum_cons]
        omega
      have hzero : ∀ t, bondPos (ns :: nbs) 0 t = t := by
        intro t
        simp [bondPos]
      split at h
      · next hc =>
        rw [e] at h
        obtain ⟨ha, hb, hf⟩ := ih ids (pre ++ (ns.length :: ns)) (pos + 1 + ns.length) (bi + ns.length) _ _ _
          (by simpa using hlen) (by simp [hpos]; omega) hnd.2 h
        refine ⟨?_, ?_, ?_⟩
        · intro b hb'
          rw [ha b (by omega), breakAll, if_neg (by omega)]
        · intro k hk
          rw [List.mem_cons, not_or] at hk
          rw [hb k hk.2, List.mem_append, List.mem_singleton]
          exact ⟨fun h => h.resolve_right hk.1, Or.inl⟩
        · intro p i' ns' hp hn hi'
          cases p with
          | zero =>
            rw [List.getElem?_cons_zero] at hp hn
            cases hp
            cases hn
            rw [hb _ hnd.1]
            simp only [List.mem_append, List.mem_singleton, or_true, true_iff]
            have : ((List.range ns.length).map fun t => d' (bi + bondPos (ns :: nbs) 0 t)).sum =
                ((List.range ns.length).map fun _ => (1 : ℝ)).sum := by
              congr 1
              apply List.map_congr_left
              intro t ht
              rw [hzero, ha _ (by have := List.mem_range.1 ht; omega), breakAll,
                if_pos (by have := List.mem_range.1 ht; omega)]
            rw [this]
            simp
          | succ p =>
            rw [List.getElem?_cons_succ] at hp hn
            have hne : i' ≠ i := by
              rintro rfl
              exact hnd.1 (List.mem_of_getElem? hp)
            rw [hf p i' ns' hp hn (by simp [hi', hne])]
            simp only [hshift, Nat.add_assoc]
      · next hc =>
        rw [e] at h
        obtain ⟨ha, hb, hf⟩ := ih ids (pre ++ (ns.length :: ns)) (pos + 1 + ns.length) (bi + ns.length) _ _ _
          (by simpa using hlen) (by simp [hpos]; omega) hnd.2 h
        refine ⟨fun b hb' => ha b (by omega), ?_, ?_⟩
        · intro k hk
          rw [List.mem_cons, not_or] at hk
          exact hb k hk.2
        · intro p i' ns' hp hn hi'
          cases p with
          | zero =>
            rw [List.getElem?_cons_zero] at hp hn
            cases hp
            cases hn
            rw [hb _ hnd.1]
            simp only [hi', false_iff, not_le, ge_iff_le]
            have hc' : ¬ bondSum d bi ns.length 0 ≥ (ns.length : ℝ) - 2 := fun h => hc ⟨h, hi'⟩
            rw [bondSum_eq, zero_add] at hc'
            simp only [hzero]
            rw [bondSum_congr (d' := d) fun t ht => ha _ (by omega)]
            exact not_le.1 hc'
          | succ p =>
            rw [List.getElem?_cons_succ] at hp hn
            rw [hf p i' ns' hp hn hi']
            simp only [hshift, Nat.add_assoc]

theorem interfaceWithSets_ok {crit : ℝ} {crits : Nat → ℝ} {ids l : List Nat} {I : Damage.Input} {s s' : State}
    {sets sets' : BC.NodeSets} {set : List Nat} (hs : sets deficientName = some set)
    (h : interfaceWithSets crit crits ids l I sets s = .ok (s', sets')) :
    ∃ d dm set', interfacePoints l ids 0 0 d s.pointNP1 set = .ok (s'.bondNP1, dm, set') ∧
      sets' = Function.update sets deficientName (some set') := by
  rw [interfaceWithSets, hs] at h
  simp only at h
  obtain ⟨r, h1, h2⟩ := Outcome.bind_eq_ok.1 h
  rw [interfaceAware] at h1
  split at h1
  · split at h1
    · next d hd =>
      split at h1
      · next d' p set' hp =>
        cases h1
        cases h2
        exact ⟨d, p, set', hp, rfl⟩
      · cases h1
      · cases h1
    · cases h1
    · cases h1
  · cases h1
  · cases h1

theorem deficient_coords : BC.CoordsOk deficientConditions := by
  intro c hc q hq
  simp only [deficientConditions, List.mem_cons, List.not_mem_nil, or_false] at hc
  rcases hc with rfl | rfl | rfl <;>
  · have : q = .displacement := by simpa [deficientCondition, BC.unknownOf] using hq.symm
    subst this
    decide

theorem deficient_found {sets : BC.NodeSets} {set : List Nat} (hs : sets deficientName = some set) :
    BC.SetsFound BC.dispOnly sets deficientConditions := by
  intro c hc q _ _
  simp only [deficientConditions, List.mem_cons, List.not_mem_nil, or_false] at hc
  rcases hc with rfl | rfl | rfl <;> exact ⟨set, hs⟩

theorem deficient_constrained {sets : BC.NodeSets} {set : List Nat} (hs : sets deficientName = some set) (g : Nat)
    {k : Nat} (hk : k < 3) :
    BC.Constrained BC.dispOnly sets deficientConditions g .displacement k ↔ g ∈ set := by
  constructor
  · rintro ⟨_, c, hc, _, _, nodes, h1, h2⟩
    have : c.nodeSet = deficientName := by
      simp only [deficientConditions, List.mem_cons, List.not_mem_nil, or_false] at hc
      rcases hc with rfl | rfl | rfl <;> rfl
    rw [this, hs] at h1
    cases h1
    exact h2
  · intro hg
    refine ⟨rfl, deficientCondition k, ?_, rfl, rfl, set, hs, hg⟩
    have : k = 0 ∨ k = 1 ∨ k = 2 := by omega
    rcases this with rfl | rfl | rfl <;> simp [deficientConditions]

/-- What the three conditions do to a vector: exactly the entries of the points in the set, taken as global ids, are zeroed. -/
theorem deficient_zeros {gids : List Nat} {sets : BC.NodeSets} {set : List Nat} (hs : sets deficientName = some set)
    {v v' : List ℝ} (hv : v.length = 3 * gids.length)
    (h : BC.insertZeros BC.dispOnly (BC.tangentGids 3 gids) sets deficientConditions v = .ok v') {g : Nat} (hg : g ∈ gids)
    {c : Nat} (hc : c < 3) :
    v'[3 * gids.idxOf g + c]? = if g ∈ set then some 0 else v[3 * gids.idxOf g + c]? := by
  obtain ⟨w, h1, _, h2⟩ := BC.insert_zeros_exact BC.dispOnly BC.dispOnly_good gids sets deficientConditions
    deficient_coords (deficient_found hs) v hv
  have ht : BC.dispOnly.total = 3 := rfl
  rw [ht, h] at h1
  cases h1
  have hl : BC.lid gids g = some (gids.idxOf g) := BC.lid_some.2 ⟨hg, rfl⟩
  obtain ⟨h3, h4⟩ := h2 g _ .displacement c hl rfl hc
  have hrow : Dof.row BC.dispOnly (gids.idxOf g) .displacement c = 3 * gids.idxOf g + c := rfl
  rw [hrow, deficient_constrained hs g hc] at h3 h4
  split
  · next hm => exact h3 hm
  · next hm => exact h4 hm

/-- C154, partial: for a block whose local ids are the global ids (one block, points in the order of their ids), after the
first evaluation the residual entries of exactly those points are zero that have at most two whole bonds.  (Missing: any other
block, see `C154_fails`.) -/
theorem C154_partial (T : List Pt) (b : Nat) (blk : Neigh.Block) (hT : (T.map Pt.gid).Nodup)
    (hblk : meshBlock T b = .ok blk) (hlocal : blk.data.ownedIDs = blk.maps.owned) (nbs : List (List Nat))
    (hl : blk.data.list = encode nbs) (hlen : nbs.length = blk.data.ownedIDs.length) (crit : ℝ) (crits : Nat → ℝ)
    (I : Damage.Input) (s s' : State) (sets' : BC.NodeSets)
    (h : interfaceWithSets crit crits blk.data.ownedIDs blk.data.list I (addPlaceholder true fun _ => none) s =
      .ok (s', sets'))
    (v v' : List ℝ) (hv : v.length = 3 * T.length)
    (hz : BC.insertZeros BC.dispOnly (BC.tangentGids 3 (T.map Pt.gid)) sets' deficientConditions v = .ok v')
    (p g : Nat) (ns : List Nat) (hp : blk.maps.owned[p]? = some g) (hn : nbs[p]? = some ns) (c : Nat) (hc : c < 3) :
    v'[3 * (T.map Pt.gid).idxOf g + c]? =
      if brokenSum nbs s'.bondNP1 p ns.length ≥ (ns.length : ℝ) - 2 then some 0
      else v[3 * (T.map Pt.gid).idxOf g + c]? := by
  obtain ⟨blk', ghosts, h1, h2, h3, h4, _⟩ := C11_maps T hT b
  rw [hblk] at h1
  cases h1
  have hmem : g ∈ T.map Pt.gid := by
    have := List.mem_of_getElem? hp
    rw [h2] at this
    obtain ⟨t, ht, rfl⟩ := List.mem_map.1 this
    exact List.mem_map_of_mem (List.mem_filter.1 ht).1
  have hnd : blk.data.ownedIDs.Nodup := by
    rw [hlocal]
    rw [h3] at h4
    exact (List.nodup_append.1 h4).1
  have hs : addPlaceholder true (fun _ => none) deficientName = some [] := by
    simp [addPlaceholder]
  obtain ⟨d, dm, set', h5, rfl⟩ := interfaceWithSets_ok hs h
  rw [hl] at h5
  obtain ⟨_, _, h6⟩ := interfacePoints_spec nbs blk.data.ownedIDs [] 0 0 d _ _ _ [] set' hlen.symm rfl hnd h5
  have h7 := h6 p g ns (by rw [hlocal]; exact hp) hn (by simp)
  rw [deficient_zeros (set := set') (by simp) (by rw [hv, List.length_map]) hz hmem hc]
  have h8 : brokenSum nbs s'.bondNP1 p ns.length =
      ((List.range ns.length).map fun t => s'.bondNP1 (0 + bondPos nbs p t)).sum := by
    rw [brokenSum]
    simp only [Nat.zero_add]
  rw [h8]
  exact if_congr h7 rfl rfl

/-- C154: what happens in general.  The entries that are zeroed are those of the points whose *global* id is the local id of a
point with at most two whole bonds. -/
theorem C154_renumbered (T : List Pt) (b : Nat) (blk : Neigh.Block) (hT : (T.map Pt.gid).Nodup)
    (hblk : meshBlock T b = .ok blk) (nbs : List (List Nat))
    (hl : blk.data.list = encode nbs) (hlen : nbs.length = blk.data.ownedIDs.length) (crit : ℝ) (crits : Nat → ℝ)
    (I : Damage.Input) (s s' : State) (sets' : BC.NodeSets)
    (h : interfaceWithSets crit crits blk.data.ownedIDs blk.data.list I (addPlaceholder true fun _ => none) s =
      .ok (s', sets'))
    (v v' : List ℝ) (hv : v.length = 3 * T.length)
    (hz : BC.insertZeros BC.dispOnly (BC.tangentGids 3 (T.map Pt.gid)) sets' deficientConditions v = .ok v')
    (g : Nat) (hg : g ∈ T.map Pt.gid) (ns : List Nat) (hn : nbs[g]? = some ns) (c : Nat) (hc : c < 3) :
    v'[3 * (T.map Pt.gid).idxOf g + c]? =
      if brokenSum nbs s'.bondNP1 g ns.length ≥ (ns.length : ℝ) - 2 then some 0
      else v[3 * (T.map Pt.gid).idxOf g + c]? := by
  obtain ⟨blk', ghosts, h1, h2, h3, h4, _⟩ := C11_maps T hT b
  rw [hblk] at h1
  cases h1
  have hids : blk.data.ownedIDs = List.range blk.maps.owned.length := by
    have hsame := meshBlock_eq T hT b
    rw [hblk] at hsame
    cases hsame
    apply List.ext_getElem
    · simp [blockData, mapsOf, ownOf]
    · intro k hk1 hk2
      rw [List.length_range] at hk2
      have hk3 : k < (inBlock T b).length := by simpa [mapsOf, ownOf] using hk2
      simp only [blockData, List.getElem_map, List.getElem_range]
      have hnd' : (mapsOf T b).overlap.Nodup := h4
      have hlt : k < (mapsOf T b).overlap.length := by
        rw [h3, List.length_append]
        omega
      have h9 : (mapsOf T b).overlap[k]? = some (inBlock T b)[k].gid := by
        have h3' : (mapsOf T b).overlap = (mapsOf T b).owned ++ ghosts := h3
        rw [h3', List.getElem?_append_left hk2]
        simp [mapsOf, ownOf, hk3]
      have : (mapsOf T b).overlap[k] = (inBlock T b)[k].gid := (List.getElem?_eq_some_iff.1 h9).2
      rw [← this]
      exact hnd'.idxOf_getElem k hlt
  have hs : addPlaceholder true (fun _ => none) deficientName = some [] := by
    simp [addPlaceholder]
  obtain ⟨d, dm, set', h5, rfl⟩ := interfaceWithSets_ok hs h
  rw [hl] at h5
  obtain ⟨_, _, h6⟩ := interfacePoints_spec nbs blk.data.ownedIDs [] 0 0 d _ _ _ [] set' hlen.symm rfl
    (by rw [hids]; exact List.nodup_range) h5
  have hlt : g < nbs.length := (List.getElem?_eq_some_iff.1 hn).1
  have h7 := h6 g g ns (by
    rw [hids, List.getElem?_range]
    rw [hlen, hids, List.length_range] at hlt
    exact hlt) hn (by simp)
  rw [deficient_zeros (set := set') (by simp) (by rw [hv, List.length_map]) hz hg hc]
  have h8 : brokenSum nbs s'.bondNP1 g ns.length =
      ((List.range ns.length).map fun t => s'.bondNP1 (0 + bondPos nbs g t)).sum := by
    rw [brokenSum]
    simp only [Nat.zero_add]
  rw [h8]
  exact if_congr h7 rfl rfl

/-- Two points: point 5 without bonds and point 0 with three. -/
def deficientMesh : List Pt := [⟨5, [], 1⟩, ⟨0, [6, 7, 8], 1⟩]

theorem deficientMesh_block : meshBlock deficientMesh 1 = .ok
    ⟨⟨[5, 0], [5, 0, 6, 7, 8], ⟨[0], [3]⟩⟩, ⟨[0, 1], [0, 3, 2, 3, 4], [0, 1]⟩⟩ := by decide

theorem interfaceLoop_zero (crit : ℝ) (I : Damage.Input) (ids : List Nat) (bs : List Bond) (d : Nat → ℝ) :
    interfaceLoop crit (fun _ => 0) I ids bs d = .ok d := by
  induction bs with
  | nil => rfl
  | cons b bs ih =>
    rw [interfaceLoop, interfaceBond, if_pos (Or.inr rfl)]
    exact ih

/-- The state without damage. -/
def wholeState : State := ⟨fun _ => 0, fun _ => 0, fun _ => 0, fun _ => 0⟩

theorem deficient_demo (I : Damage.Input) : ∃ s', interfaceWithSets 1 (fun _ => 0) [0, 1] [0, 3, 2, 3, 4] I
    (addPlaceholder true fun _ => none) wholeState =
      .ok (s', Function.update (addPlaceholder true fun _ => none) deficientName (some [0])) ∧ s'.bondNP1 = fun _ => 0 := by
  have hv : visitedBonds 2 [0, 3, 2, 3, 4] = .ok [⟨1, 2, 0⟩, ⟨1, 3, 1⟩, ⟨1, 4, 2⟩] := by decide
  have hp : ∃ dm, interfacePoints [0, 3, 2, 3, 4] [0, 1] 0 0 (fun _ => 0) wholeState.pointNP1 [] =
      .ok (fun _ => 0, dm, [0]) := by
    have r0 : readAt [0, 3, 2, 3, 4] 0 = .ok 0 := rfl
    have r1 : readAt [0, 3, 2, 3, 4] (0 + 1 + 0) = .ok 3 := rfl
    rw [interfacePoints, r0]
    simp only
    rw [if_pos ⟨by rw [bondSum_eq]; norm_num, by simp⟩, interfacePoints, r1]
    simp only
    rw [if_neg]
    · rw [interfacePoints]
      refine ⟨_, congrArg Outcome.ok (Prod.ext ?_ rfl)⟩
      funext k
      simp only [breakAll]
      rw [if_neg (by omega)]
    · rintro ⟨h, _⟩
      rw [bondSum_eq] at h
      simp only [breakAll] at h
      norm_num [List.range_succ] at h
  obtain ⟨dm, hp⟩ := hp
  refine ⟨{ wholeState with bondNP1 := fun _ => 0, pointNP1 := dm }, ?_, rfl⟩
  have hs : addPlaceholder true (fun _ => none) deficientName = some [] := by
    simp [addPlaceholder]
  rw [interfaceWithSets, hs]
  simp only
  rw [interfaceAware]
  simp only [List.length_cons, List.length_nil, Nat.zero_add, Nat.reduceAdd]
  rw [hv]
  simp only
  rw [interfaceLoop_zero]
  simp only
  have : wholeState.bondNP1 = fun _ => 0 := rfl
  rw [this, hp]
  rfl

/-- C154 is false of the code: point 5 has no bonds, but the entries that are zeroed are those of point 0, which has three whole
bonds, because 0 is the local id of point 5. -/
theorem C154_fails : ¬ DeficientTakenOut := by
  intro hall
  let I : Damage.Input := ⟨fun _ => 0, fun _ => 0, none⟩
  obtain ⟨s', h1, h2⟩ := deficient_demo I
  have hs : Function.update (addPlaceholder true fun _ => none) deficientName (some [0]) deficientName = some [0] := by
    simp
  obtain ⟨v', h3, _, _⟩ := BC.insert_zeros_exact BC.dispOnly BC.dispOnly_good [5, 0] _ deficientConditions
    deficient_coords (deficient_found hs) [1, 1, 1, 1, 1, 1] rfl
  have h4 := deficient_zeros (gids := [5, 0]) hs (v := [1, 1, 1, 1, 1, 1]) rfl h3 (g := 0) (by simp) (c := 0) (by omega)
  have h5 := hall deficientMesh 1 _ (by decide) deficientMesh_block [[], [2, 3, 4]] rfl rfl 1 (fun _ => 0) I wholeState s' _
    h1 [1, 1, 1, 1, 1, 1] v' rfl h3 1 0 [2, 3, 4] rfl rfl 0 (by omega)
  have e : (deficientMesh.map Pt.gid) = [5, 0] := rfl
  rw [e, h4, if_pos (by simp), if_neg] at h5
  · have : [5, 0].idxOf 0 = 1 := rfl
    rw [this] at h5
    simp at h5
  · rw [h2, brokenSum]
    norm_num

/-- C154: without the placeholder a point with at most two whole bonds ends the run: the set to which it is to be added does
not exist.  (Such is the case in analyses that do not allocate a full tangent, see `createDeficientSet`.) -/
theorem C154_without_set (crit : ℝ) (crits : Nat → ℝ) (ids l : List Nat) (I : Damage.Input) (s s1 s' : State)
    (sets' : BC.NodeSets) (set : List Nat) (hne : set ≠ [])
    (h : interfaceAware crit crits ids l I (s, []) = .ok (s1, set)) :
    interfaceWithSets crit crits ids l I (addPlaceholder false fun _ => none) s ≠ .ok (s', sets') := by
  intro h'
  have hs : addPlaceholder false (fun _ => none) deficientName = none := by
    simp [addPlaceholder]
  rw [interfaceWithSets, hs] at h'
  simp only at h'
  rw [h, Outcome.ok_bind, if_neg hne] at h'
  cases h'

/-- The hypotheses of `C154_partial` are met by two points numbered in order. -/
example : ∃ blk : Neigh.Block, meshBlock [⟨0, [], 1⟩, ⟨1, [6, 7, 8], 1⟩] 1 = .ok blk ∧ blk.data.ownedIDs = blk.maps.owned ∧
    blk.data.list = encode [[], [2, 3, 4]] ∧ ∃ s' sets', interfaceWithSets 1 (fun _ => 0) blk.data.ownedIDs blk.data.list
      ⟨fun _ => 0, fun _ => 0, none⟩ (addPlaceholder true fun _ => none) wholeState = .ok (s', sets') := by
  obtain ⟨s', h1, _⟩ := deficient_demo ⟨fun _ => 0, fun _ => 0, none⟩
  exact ⟨⟨⟨[0, 1], [0, 1, 6, 7, 8], ⟨[1], [3]⟩⟩, ⟨[0, 1], [0, 3, 2, 3, 4], [0, 1]⟩⟩, by decide, rfl, rfl, s', _, h1⟩

/-- The hypotheses of `C154_without_set` are met: the point without bonds. -/
example : ∃ s' : State, interfaceAware 1 (fun _ => 0) [0] [0] ⟨fun _ => 0, fun _ => 0, none⟩ (wholeState, []) = .ok (s', [0]) := by
  have hv : visitedBonds 1 [0] = .ok [] := by decide
  have r0 : readAt [0] 0 = .ok 0 := rfl
  rw [interfaceAware]
  simp only [List.length_cons, List.length_nil, Nat.zero_add]
  rw [hv]
  simp only
  rw [interfaceLoop_zero]
  simp only
  rw [interfacePoints, r0]
  simp only
  rw [if_pos ⟨by rw [bondSum_eq]; norm_num, by simp⟩, interfacePoints]
  exact ⟨_, rfl⟩

end Verif.Setup
