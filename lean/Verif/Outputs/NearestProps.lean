import Verif.Outputs.NearestLemmas
import Verif.Outputs.ReduceProps

/-! C53 and C92: the nearest point. -/

noncomputable section

namespace Verif.Outputs

open Verif Verif.Mech
open scoped Classical

/-- C53: the point tracked is the point with the smallest id among those nearest to the location, and the
block remembered is the one that contains it. -/
theorem C53_nearest {loc : V3} {procs : List (List Piece)} (hne : allPoints procs ≠ [])
    (hr : Representable loc (allPoints procs)) (ho : OwnedOnce procs) :
    ∃ t, nearestInit loc procs = .ok t ∧ IsNearest loc (allPoints procs) t.id ∧
      ∃ blocks ∈ procs, ∃ b ∈ blocks, t.id ∈ b.gids ∧ t.blockId = b.id := by
  obtain ⟨g, id, h1, h2, _, _, ⟨p, hp, e1, e2⟩, hq⟩ := exchange hne hr
  obtain ⟨blocks, hb, b, hbm, i, hi, _⟩ := mem_allPoints hp
  have hm : id ∈ b.gids := by rw [← e1]; exact List.mem_of_getElem? hi
  have hpn : procs ≠ [] := List.ne_nil_of_mem hb
  rw [nearestInit, h1, Outcome.ok_bind, h2, Outcome.ok_bind, blockId_eq ho hb hbm hm, Outcome.ok_bind,
    sumAll_ok (by simpa using hpn), Outcome.ok_bind]
  refine ⟨_, rfl, isNearest_iff.2 ⟨p, hp, e1, fun q hqm => ?_⟩, blocks, hb, b, hbm, hm, rfl⟩
  obtain ⟨h3, h4⟩ := hq q hqm
  exact ⟨by rw [e2]; exact h3, fun e => h4 (e.trans e2)⟩

theorem demo_points : allPoints demoProcs = [(![0, 0, 0], 0), (![1, 0, 0], 1), (![2, 0, 0], 2)] := by
  simp [allPoints, demoProcs]

theorem demo_representable : Representable ![1, 0, 0] (allPoints demoProcs) := by
  rw [demo_points]
  intro p hp
  have h := le_dblMax
  simp only [List.mem_cons, List.not_mem_nil, or_false] at hp
  rcases hp with rfl | rfl | rfl
  · exact ⟨by simp [distSq]; linarith, by simp [intMax]⟩
  · exact ⟨by simp [distSq]; linarith, by simp [intMax]⟩
  · refine ⟨?_, by simp [intMax]⟩
    simp [distSq]
    norm_num
    linarith

theorem demo_ownedOnce : OwnedOnce demoProcs := by
  simp [OwnedOnce, demoProcs]

example : ∃ t, nearestInit ![1, 0, 0] demoProcs = .ok t ∧ IsNearest ![1, 0, 0] (allPoints demoProcs) t.id ∧
    ∃ blocks ∈ demoProcs, ∃ b ∈ blocks, t.id ∈ b.gids ∧ t.blockId = b.id :=
  C53_nearest (by simp [demo_points]) demo_representable demo_ownedOnce

/-- C53: no other point satisfies the description. -/
theorem C53_unique {loc : V3} {pts : List (V3 × Nat)} {e e' : Nat} (h : IsNearest loc pts e)
    (h' : IsNearest loc pts e') : e = e' := by
  obtain ⟨p, hp, rfl, h1⟩ := h
  obtain ⟨q, hq, rfl, h2⟩ := h'
  obtain ⟨a1, a2⟩ := h1 q hq
  obtain ⟨b1, b2⟩ := h2 p hp
  have e := le_antisymm a1 b1
  exact le_antisymm (a2 e.symm) (b2 e)

example : IsNearest ![1, 0, 0] (allPoints demoProcs) 1 := by
  rw [isNearest_iff]
  refine ⟨(![1, 0, 0], 1), by simp [demo_points], rfl, ?_⟩
  rw [demo_points]
  intro q hq
  simp only [List.mem_cons, List.not_mem_nil, or_false] at hq
  rcases hq with rfl | rfl | rfl <;> simp [distSq]

/-- C53: the result depends only on the set of points, not on their distribution over blocks and processors. -/
theorem C53_distribution {loc : V3} {procs procs' : List (List Piece)} (hne : allPoints procs ≠ [])
    (hr : Representable loc (allPoints procs)) (ho : OwnedOnce procs) (ho' : OwnedOnce procs')
    (h : ∀ p, p ∈ allPoints procs ↔ p ∈ allPoints procs') {t t' : Tracked}
    (ht : nearestInit loc procs = .ok t) (ht' : nearestInit loc procs' = .ok t') : t.id = t'.id := by
  obtain ⟨q, hq⟩ := List.exists_mem_of_ne_nil _ hne
  obtain ⟨s, hs, hn, _⟩ := C53_nearest hne hr ho
  obtain ⟨s', hs', hn', _⟩ := C53_nearest (loc := loc) (List.ne_nil_of_mem ((h q).mp hq))
    (fun p hp => hr p ((h p).mpr hp)) ho'
  rw [hs] at ht
  rw [hs'] at ht'
  cases ht
  cases ht'
  obtain ⟨p, hp, e, hall⟩ := hn
  exact C53_unique ⟨p, (h p).mp hp, e, fun q hq => hall q ((h q).mpr hq)⟩ hn'

example : ∃ t t', nearestInit ![1, 0, 0] demoProcs = .ok t ∧ nearestInit ![1, 0, 0] demoProcs.reverse = .ok t' ∧
    t.id = t'.id := by
  have hm : ∀ p, p ∈ allPoints demoProcs ↔ p ∈ allPoints demoProcs.reverse := by
    intro p
    simp only [allPoints, List.mem_flatMap, List.mem_reverse]
  have ho' : OwnedOnce demoProcs.reverse := by simp [OwnedOnce, demoProcs]
  have hne : allPoints demoProcs ≠ [] := by simp [demo_points]
  obtain ⟨t, ht, _⟩ := C53_nearest hne demo_representable demo_ownedOnce
  obtain ⟨t', ht', _⟩ := C53_nearest (loc := ![1, 0, 0]) (procs := demoProcs.reverse)
    (by simp [allPoints, demoProcs]) (fun p hp => demo_representable p ((hm p).mpr hp)) ho'
  exact ⟨t, t', ht, ht', C53_distribution hne demo_representable demo_ownedOnce ho' hm ht ht'⟩

/-- C53: the output is the variable at the tracked point. -/
theorem C53_value {loc : V3} {procs : List (List Piece)} (n c : Nat) (hr : Representable loc (allPoints procs))
    (ho : OwnedOnce procs) {t : Tracked} (ht : nearestInit loc procs = .ok t) {blocks : List Piece} {b : Piece}
    {i : Nat} (hp : blocks ∈ procs) (hb : b ∈ blocks) (hi : b.gids[i]? = some t.id) :
    nearestValue n c t procs = .ok (b.data (n * i + c)) := by
  have hne : allPoints procs ≠ [] := List.ne_nil_of_mem (mem_allPoints_of hp hb hi)
  obtain ⟨s, hs, _, blocks', hp', b', hb', hm', e⟩ := C53_nearest hne hr ho
  rw [hs] at ht
  cases ht
  have h1 := blockId_eq ho hp' hb' hm'
  have h2 := blockId_eq ho hp hb (List.mem_of_getElem? hi)
  rw [h1] at h2
  refine value_eq n c ho hp hb hi (e.trans ?_)
  injection h2

/-- The location is that of point 1, whose value is 2. -/
example : ∃ t, nearestInit ![1, 0, 0] demoProcs = .ok t ∧ nearestValue 1 0 t demoProcs = .ok 2 := by
  obtain ⟨t, ht, hn, _⟩ := C53_nearest (loc := ![1, 0, 0]) (procs := demoProcs) (by simp [demo_points])
    demo_representable demo_ownedOnce
  have h1 : t.id = 1 := by
    obtain ⟨p, hp, e, h⟩ := isNearest_iff.1 hn
    rw [demo_points] at hp h
    have h0 := (h (![1, 0, 0], 1) (by simp)).1
    simp only [List.mem_cons, List.not_mem_nil, or_false] at hp
    rcases hp with rfl | rfl | rfl
    · simp [distSq] at h0
      norm_num at h0
    · exact e.symm
    · simp [distSq] at h0
      norm_num at h0
  refine ⟨t, ht, ?_⟩
  have := C53_value 1 0 demo_representable demo_ownedOnce ht (blocks := demoProcs[0])
    (b := ⟨1, "block_1", [0, 1], fun i => ![i, 0, 0], fun i => (i : ℝ) + 1⟩) (i := 1)
    (by simp [demoProcs]) (by simp [demoProcs]) (by simp [h1])
  rw [this]
  norm_num

/-! ### The warning about ties -/

/-- C92: if several points are at minimal distance, the warning is printed. -/
theorem C92_warning_if_tied {loc : V3} {procs : List (List Piece)} (hr : ∀ p ∈ allPoints procs,
    distSq p.1 loc < dblMax ∧ p.2 < intMax) (ho : OwnedOnce procs) (ht : Tied loc (allPoints procs)) :
    ∃ t, nearestInit loc procs = .ok t ∧ t.warning = true := by
  obtain ⟨p, hp, q, hq, hpq, hmin⟩ := tied_iff.1 ht
  have hne := List.ne_nil_of_mem hp
  obtain ⟨g, id, h1, h2, hlt, hgl, ⟨p0, hp0, e1, e2⟩, hall⟩ := exchange hne fun p h => ⟨(hr p h).1.le, (hr p h).2⟩
  have dp : distSq p.1 loc = g := le_antisymm (by rw [← e2]; exact (hmin p0 hp0).1) (hall p hp).1
  have dq : distSq q.1 loc = g := le_antisymm (by rw [← e2]; exact (hmin p0 hp0).2) (hall q hq).1
  -- some processor reports a tie
  have hex : ∃ b ∈ procs, (nearestLocal loc b).tied g id = true := by
    rw [allPoints_eq] at hp hq
    obtain ⟨bp, hbp, hp⟩ := List.mem_flatMap.mp hp
    obtain ⟨bq, hbq, hq⟩ := List.mem_flatMap.mp hq
    have hr' : ∀ b ∈ procs, ∀ p ∈ pointsOf b, distSq p.1 loc < dblMax ∧ p.2 < intMax := fun b hb p hp =>
      hr p (by rw [allPoints_eq]; exact List.mem_flatMap.mpr ⟨b, hb, hp⟩)
    have found : ∀ b ∈ procs, Found loc (pointsOf b) (nearestLocal loc b) := fun b hb =>
      nearestLocal_found fun p hp => ⟨(hr' b hb p hp).1.le, (hr' b hb p hp).2⟩
    have dist : ∀ b ∈ procs, ∀ r ∈ pointsOf b, distSq r.1 loc = g → (nearestLocal loc b).dist = g :=
      fun b hb r hrm e => le_antisymm (by rw [← e]; exact ((found b hb).dist_le r hrm).1) (hgl b hb)
    have byId : ∀ b ∈ procs, ∀ r ∈ pointsOf b, distSq r.1 loc = g → (nearestLocal loc b).id ≠ id →
        (nearestLocal loc b).tied g id = true := by
      intro b hb r hrm e hid
      obtain ⟨s, hs, e3, _⟩ := (found b hb).exists_point (Or.inr (List.ne_nil_of_mem hrm))
      have hne : (nearestLocal loc b).id ≠ intMax := by
        rw [← e3]
        exact ne_of_lt (hr' b hb s hs).2
      rw [Nearest.tied, Nearest.candidate, if_pos (dist b hb r hrm e), if_pos ⟨hne, hid⟩]
    by_cases hpi : (nearestLocal loc bp).id = id
    · by_cases hqi : (nearestLocal loc bq).id = id
      · -- both processors have the point `id`: they are the same list of blocks
        obtain ⟨s, hs, e3, _⟩ := (found bp hbp).exists_point (Or.inr (List.ne_nil_of_mem hp))
        obtain ⟨s', hs', e3', _⟩ := (found bq hbq).exists_point (Or.inr (List.ne_nil_of_mem hq))
        have hin : id ∈ bp.flatMap Piece.gids := by
          rw [← pointsOf_ids, ← hpi, ← e3]
          exact List.mem_map_of_mem hs
        have hin' : id ∈ bq.flatMap Piece.gids := by
          rw [← pointsOf_ids, ← hqi, ← e3']
          exact List.mem_map_of_mem hs'
        obtain ⟨b, hb, hi⟩ := List.mem_flatMap.mp hin
        obtain ⟨b', hb', hi'⟩ := List.mem_flatMap.mp hin'
        obtain ⟨l1, l2, el, hno, _⟩ := split_owner ho hbp hb hi
        have hsame : bq = bp := by
          rw [el] at hbq
          rcases List.mem_append.mp hbq with h | h
          · exact absurd hi' (hno bq (List.mem_append_left _ h) b' hb')
          · rcases List.mem_cons.mp h with h | h
            · exact h
            · exact absurd hi' (hno bq (List.mem_append_right _ h) b' hb')
        rw [hsame] at hq
        have hd := dist bp hbp p hp dp
        refine ⟨bp, hbp, ?_⟩
        rw [Nearest.tied]
        split
        · rfl
        · rw [nearestLocal_ties (hr' bp hbp), hd]
          refine two_of_mem (a := p) (b := q) (List.mem_filter.mpr ⟨hp, by simpa using dp⟩)
            (List.mem_filter.mpr ⟨hq, by simpa using dq⟩) ?_
          rintro rfl
          exact hpq rfl
      · exact ⟨bq, hbq, byId bq hbq q hq dq hqi⟩
    · exact ⟨bp, hbp, byId bp hbp p hp dp hpi⟩
  obtain ⟨blocks, hb, b, hbm, i, hi, _⟩ := mem_allPoints hp0
  have hm : id ∈ b.gids := by rw [← e1]; exact List.mem_of_getElem? hi
  have hpn : procs ≠ [] := List.ne_nil_of_mem hb
  rw [nearestInit, h1, Outcome.ok_bind, h2, Outcome.ok_bind, blockId_eq ho hb hbm hm, Outcome.ok_bind,
    sumAll_ok (by simpa using hpn), Outcome.ok_bind]
  refine ⟨_, rfl, ?_⟩
  rw [decide_eq_true_eq]
  obtain ⟨b1, hb1, ht1⟩ := hex
  obtain ⟨l1, l2, el⟩ := List.append_of_mem hb1
  have nn : ∀ l : List (List Piece), 0 ≤ (l.map fun b =>
      if (nearestLocal loc b).tied g id then (1 : Int) else 0).sum := by
    intro l
    induction l with
    | nil => simp
    | cons b l ih =>
      rw [List.map_cons, List.sum_cons]
      split <;> omega
  rw [el, List.map_append, List.map_cons, List.sum_append, List.sum_cons, if_pos ht1]
  have := nn l1
  have := nn l2
  omega

/-- Seen from the middle between points 0 and 2, with point 1 moved away. -/
def tiedProcs : List (List Piece) :=
  [[⟨1, "block_1", [0, 1], fun i => ![i, 5 * i, 0], fun _ => 0⟩],
   [⟨1, "block_1", [2], fun _ => ![2, 0, 0], fun _ => 3⟩]]

example : ∃ t, nearestInit ![1, 0, 0] tiedProcs = .ok t ∧ t.warning = true := by
  have hpts : allPoints tiedProcs = [(![0, 0, 0], 0), (![1, 5, 0], 1), (![2, 0, 0], 2)] := by
    simp [allPoints, tiedProcs]
  have h := le_dblMax
  refine C92_warning_if_tied ?_ (by simp [OwnedOnce, tiedProcs]) ?_
  · rw [hpts]
    intro p hp
    simp only [List.mem_cons, List.not_mem_nil, or_false] at hp
    rcases hp with rfl | rfl | rfl
    · exact ⟨by simp [distSq]; linarith, by simp [intMax]⟩
    · exact ⟨by simp [distSq]; linarith, by simp [intMax]⟩
    · refine ⟨?_, by simp [intMax]⟩
      simp [distSq]
      norm_num
      linarith
  · rw [hpts, tied_iff]
    refine ⟨(![0, 0, 0], 0), by simp, (![2, 0, 0], 2), by simp, by simp, ?_⟩
    intro r hr
    simp only [List.mem_cons, List.not_mem_nil, or_false] at hr
    rcases hr with rfl | rfl | rfl <;> simp [distSq] <;> norm_num

/-- C92 on a single processor: the warning is printed only if several points are at minimal distance.
Missing: several processors, where it is false, see `C92_spurious_warning`. -/
theorem C92_tied_if_warning_partial {loc : V3} {blocks : List Piece} (hr : ∀ p ∈ allPoints [blocks],
    distSq p.1 loc < dblMax ∧ p.2 < intMax) (ho : OwnedOnce [blocks]) {t : Tracked}
    (ht : nearestInit loc [blocks] = .ok t) (hw : t.warning = true) : Tied loc (allPoints [blocks]) := by
  have hpts : allPoints [blocks] = pointsOf blocks := by
    rw [allPoints_eq, List.flatMap_cons, List.flatMap_nil, List.append_nil]
  rw [hpts] at hr ⊢
  have found : Found loc (pointsOf blocks) (nearestLocal loc blocks) :=
    nearestLocal_found fun p hp => ⟨(hr p hp).1.le, (hr p hp).2⟩
  have h1 : t.warning = (nearestLocal loc blocks).ties := by
    simp only [nearestInit, List.map_cons, List.map_nil, minAll, sumAll, List.foldl_nil, Outcome.ok_bind] at ht
    cases ht
    simp only [Nearest.tied, Nearest.candidate, ↓reduceIte, ne_eq, not_true_eq_false, and_false]
    cases (nearestLocal loc blocks).ties <;> simp
  rw [h1, nearestLocal_ties hr] at hw
  have hn : ((pointsOf blocks).map Prod.snd).Nodup := by
    rw [pointsOf_ids]
    have := ho
    rw [OwnedOnce, List.flatMap_cons, List.flatMap_nil, List.append_nil] at this
    exact this
  have hsub : (atDist loc (nearestLocal loc blocks).dist (pointsOf blocks)).Sublist (pointsOf blocks) :=
    List.filter_sublist
  have hmem : ∀ r ∈ atDist loc (nearestLocal loc blocks).dist (pointsOf blocks),
      distSq r.1 loc = (nearestLocal loc blocks).dist := fun r hr => by
    simpa using (List.mem_filter.mp hr).2
  generalize hA : atDist loc (nearestLocal loc blocks).dist (pointsOf blocks) = A at hw hsub hmem
  match A, hw with
  | a :: b :: rest, _ =>
    have h2 := List.Nodup.sublist (hsub.map Prod.snd) hn
    rw [List.map_cons, List.map_cons, List.nodup_cons] at h2
    refine tied_iff.2 ⟨a, hsub.subset (by simp), b, hsub.subset (by simp), fun e => h2.1 (by rw [e]; simp), fun r hr => ?_⟩
    rw [hmem a (by simp), hmem b (by simp)]
    exact ⟨(found.dist_le r hr).1, (found.dist_le r hr).1⟩

example : ∃ t, nearestInit ![1, 0, 0] [tiedProcs.flatten] = .ok t ∧ t.warning = true ∧
    Tied ![1, 0, 0] (allPoints [tiedProcs.flatten]) := by
  have hpts : allPoints [tiedProcs.flatten] = [(![0, 0, 0], 0), (![1, 5, 0], 1), (![2, 0, 0], 2)] := by
    simp [allPoints, tiedProcs]
  have h := le_dblMax
  have hr : ∀ p ∈ allPoints [tiedProcs.flatten], distSq p.1 ![1, 0, 0] < dblMax ∧ p.2 < intMax := by
    rw [hpts]
    intro p hp
    simp only [List.mem_cons, List.not_mem_nil, or_false] at hp
    rcases hp with rfl | rfl | rfl
    · exact ⟨by simp [distSq]; linarith, by simp [intMax]⟩
    · exact ⟨by simp [distSq]; linarith, by simp [intMax]⟩
    · refine ⟨?_, by simp [intMax]⟩
      simp [distSq]
      norm_num
      linarith
  have ho : OwnedOnce [tiedProcs.flatten] := by simp [OwnedOnce, tiedProcs]
  have htied : Tied ![1, 0, 0] (allPoints [tiedProcs.flatten]) := by
    rw [hpts, tied_iff]
    refine ⟨(![0, 0, 0], 0), by simp, (![2, 0, 0], 2), by simp, by simp, ?_⟩
    intro r hr
    simp only [List.mem_cons, List.not_mem_nil, or_false] at hr
    rcases hr with rfl | rfl | rfl <;> simp [distSq] <;> norm_num
  obtain ⟨t, ht, hw⟩ := C92_warning_if_tied hr ho htied
  exact ⟨t, ht, hw, C92_tied_if_warning_partial hr ho ht hw⟩

/-- Points 0 and 1 of the first processor are equally far from the location, point 2 of the second is
there. -/
def farTie : List (List Piece) :=
  [[⟨1, "block_1", [0, 1], fun i => ![2 * i, 0, 0], fun _ => 0⟩],
   [⟨1, "block_1", [2], fun _ => ![1, 0, 0], fun _ => 3⟩]]

/-- C92 is false with several processors: a tie between points that are not the nearest is reported. -/
theorem C92_spurious_warning : ∃ (loc : V3) (procs : List (List Piece)) (t : Tracked),
    (∀ p ∈ allPoints procs, distSq p.1 loc < dblMax ∧ p.2 < intMax) ∧ OwnedOnce procs ∧
    nearestInit loc procs = .ok t ∧ t.warning = true ∧ ¬ Tied loc (allPoints procs) := by
  have hpts : allPoints farTie = [(![0, 0, 0], 0), (![2, 0, 0], 1), (![1, 0, 0], 2)] := by
    simp [allPoints, farTie]
  have h := le_dblMax
  have hr : ∀ p ∈ allPoints farTie, distSq p.1 ![1, 0, 0] < dblMax ∧ p.2 < intMax := by
    rw [hpts]
    intro p hp
    simp only [List.mem_cons, List.not_mem_nil, or_false] at hp
    rcases hp with rfl | rfl | rfl
    · exact ⟨by simp [distSq]; linarith, by simp [intMax]⟩
    · refine ⟨?_, by simp [intMax]⟩
      simp [distSq]
      norm_num
      linarith
    · exact ⟨by simp [distSq]; linarith, by simp [intMax]⟩
  have h1 : (nearestLocal ![1, 0, 0] farTie[0]).ties = true := by
    rw [nearestLocal_ties]
    · have e : pointsOf farTie[0] = [(![0, 0, 0], 0), (![2, 0, 0], 1)] := by
        simp [pointsOf, farTie, Piece.points]
      have d : (nearestLocal ![1, 0, 0] farTie[0]).dist = 1 := by
        rw [nearestLocal_eq, e]
        have a1 : distSq ![0, 0, 0] ![1, 0, 0] = 1 := by simp [distSq]
        have a2 : distSq ![2, 0, 0] ![1, 0, 0] = 1 := by simp [distSq]; norm_num
        have c1 : (1 : ℝ) ≤ dblMax := by linarith
        have c2 : (1 : ℝ) < dblMax := by linarith
        simp [Nearest.visit, a1, a2, c1, c2]
      rw [d, e, atDist]
      refine two_of_mem (a := (![0, 0, 0], 0)) (b := (![2, 0, 0], 1)) ?_ ?_ (by simp)
      · simp [distSq]
      · simp [distSq]
        norm_num
    · intro p hp
      refine hr p ?_
      rw [allPoints_eq]
      exact List.mem_flatMap.mpr ⟨farTie[0], by simp [farTie], hp⟩
  have ho : OwnedOnce farTie := by simp [OwnedOnce, farTie]
  obtain ⟨t, ht, _⟩ := C53_nearest (loc := ![1, 0, 0]) (procs := farTie) (by simp [hpts])
    (fun p hp => ⟨(hr p hp).1.le, (hr p hp).2⟩) ho
  refine ⟨![1, 0, 0], farTie, t, hr, ho, ht, ?_, ?_⟩
  · rw [nearestInit] at ht
    obtain ⟨g, _, ht⟩ := Outcome.bind_eq_ok.mp ht
    obtain ⟨id, _, ht⟩ := Outcome.bind_eq_ok.mp ht
    obtain ⟨bid, _, ht⟩ := Outcome.bind_eq_ok.mp ht
    rw [sumAll_ok (by simp [farTie]), Outcome.ok_bind] at ht
    cases ht
    have h2 : (nearestLocal ![1, 0, 0] farTie[0]).tied g id = true := by
      rw [Nearest.tied]
      split
      · rfl
      · exact h1
    rw [decide_eq_true_eq]
    rw [show farTie = [farTie[0], farTie[1]] from rfl]
    simp only [List.map_cons, List.map_nil, List.sum_cons, List.sum_nil]
    rw [if_pos h2]
    split <;> omega
  · rw [hpts, tied_iff]
    rintro ⟨p, hp, q, hq, hne, hall⟩
    have h0 := hall (![1, 0, 0], 2) (by simp)
    have z : distSq ![1, 0, 0] ![1, 0, 0] = 0 := by simp [distSq]
    rw [z] at h0
    have two : ∀ r ∈ ([(![0, 0, 0], 0), (![2, 0, 0], 1), (![1, 0, 0], 2)] : List (V3 × Nat)),
        distSq r.1 ![1, 0, 0] ≤ 0 → r.2 = 2 := by
      intro r hr hd
      simp only [List.mem_cons, List.not_mem_nil, or_false] at hr
      rcases hr with rfl | rfl | rfl
      · simp [distSq] at hd
        norm_num at hd
      · simp [distSq] at hd
        norm_num at hd
      · rfl
    exact hne ((two p hp h0.1).trans (two q hq h0.2).symm)

end Verif.Outputs
