import Verif.Outputs.Lemmas
import Mathlib.Data.List.Nodup

/-! Helper lemmas for the nearest point. -/

noncomputable section

namespace Verif.Outputs

open Verif Verif.Mech
open scoped Classical

/-- The values are such that `double` and `int` hold them. -/
def Representable (loc : V3) (pts : List (V3 × Nat)) : Prop :=
  ∀ p ∈ pts, distSq p.1 loc ≤ dblMax ∧ p.2 < intMax

/-- `s` is the result of looking at the points `pts`. -/
def Found (loc : V3) (pts : List (V3 × Nat)) (s : Nearest) : Prop :=
  (pts = [] ∧ s.dist = dblMax ∧ s.id = intMax ∧ s.ties = false) ∨
  ∃ p ∈ pts, p.2 = s.id ∧ distSq p.1 loc = s.dist ∧
    ∀ q ∈ pts, s.dist ≤ distSq q.1 loc ∧ (distSq q.1 loc = s.dist → s.id ≤ q.2)

theorem Found.visit {loc : V3} {pts : List (V3 × Nat)} {s : Nearest} (h : Found loc pts s) (p : V3 × Nat)
    (hd : distSq p.1 loc ≤ dblMax) (hi : p.2 < intMax) : Found loc (pts ++ [p]) (s.visit loc p) := by
  right
  rw [Nearest.visit]
  rcases h with ⟨rfl, hd0, hi0, _⟩ | ⟨p0, hp0, e1, e2, hq⟩
  · have c1 : distSq p.1 loc ≤ s.dist := by rw [hd0]; exact hd
    have c2 : distSq p.1 loc < s.dist ∨ p.2 < s.id := by right; rw [hi0]; exact hi
    rw [if_pos c1, if_pos c2]
    refine ⟨p, by simp, rfl, rfl, ?_⟩
    intro q hq
    have : q = p := by simpa using hq
    subst this
    exact ⟨le_rfl, fun _ => le_rfl⟩
  · by_cases c1 : distSq p.1 loc ≤ s.dist
    · rw [if_pos c1]
      by_cases c2 : distSq p.1 loc < s.dist ∨ p.2 < s.id
      · rw [if_pos c2]
        refine ⟨p, by simp, rfl, rfl, ?_⟩
        intro q hqm
        rcases List.mem_append.mp hqm with hqm | hqm
        · obtain ⟨h1, h2⟩ := hq q hqm
          refine ⟨c1.trans h1, fun e => ?_⟩
          have e' : distSq q.1 loc = distSq p.1 loc := e
          rcases c2 with c2 | c2
          · exact absurd (c2.trans_le h1) (by rw [e']; exact lt_irrefl _)
          · have : distSq q.1 loc = s.dist := le_antisymm (by rw [e']; exact c1) h1
            exact (le_of_lt c2).trans (h2 this)
        · have : q = p := by simpa using hqm
          subst this
          exact ⟨le_rfl, fun _ => le_rfl⟩
      · rw [if_neg c2]
        push Not at c2
        refine ⟨p0, by simp [hp0], e1, e2, ?_⟩
        intro q hqm
        rcases List.mem_append.mp hqm with hqm | hqm
        · exact hq q hqm
        · have : q = p := by simpa using hqm
          subst this
          exact ⟨c2.1, fun _ => c2.2⟩
    · rw [if_neg c1]
      refine ⟨p0, by simp [hp0], e1, e2, ?_⟩
      intro q hqm
      rcases List.mem_append.mp hqm with hqm | hqm
      · exact hq q hqm
      · have : q = p := by simpa using hqm
        subst this
        push Not at c1
        exact ⟨le_of_lt c1, fun e => absurd e (ne_of_gt c1)⟩

theorem Found.scan {loc : V3} : ∀ {ps pts : List (V3 × Nat)} {s : Nearest}, Found loc pts s →
    Representable loc ps → Found loc (pts ++ ps) (ps.foldl (Nearest.visit loc) s)
  | [], pts, s, h, _ => by simpa using h
  | p :: ps, pts, s, h, hr => by
    have h1 := h.visit p (hr p (by simp)).1 (hr p (by simp)).2
    have h2 := Found.scan (ps := ps) h1 fun q hq => hr q (List.mem_cons_of_mem _ hq)
    rw [List.foldl_cons]
    simpa using h2

/-- The points of one processor. -/
def pointsOf (blocks : List Piece) : List (V3 × Nat) := blocks.flatMap Piece.points

theorem nearestLocal_eq (loc : V3) (blocks : List Piece) :
    nearestLocal loc blocks = (pointsOf blocks).foldl (Nearest.visit loc) ⟨dblMax, intMax, false⟩ := by
  rw [nearestLocal, pointsOf]
  generalize (⟨dblMax, intMax, false⟩ : Nearest) = s
  induction blocks generalizing s with
  | nil => rfl
  | cons b bs ih => rw [List.foldl_cons, List.flatMap_cons, List.foldl_append, ih]

theorem allPoints_eq (procs : List (List Piece)) : allPoints procs = procs.flatMap pointsOf := rfl

theorem nearestLocal_found {loc : V3} {blocks : List Piece} (h : Representable loc (pointsOf blocks)) :
    Found loc (pointsOf blocks) (nearestLocal loc blocks) := by
  rw [nearestLocal_eq]
  have := Found.scan (loc := loc) (pts := []) (s := ⟨dblMax, intMax, false⟩) (Or.inl ⟨rfl, rfl, rfl, rfl⟩) h
  simpa using this

theorem Found.dist_le {loc : V3} {pts : List (V3 × Nat)} {s : Nearest} (h : Found loc pts s) (q : V3 × Nat)
    (hq : q ∈ pts) : s.dist ≤ distSq q.1 loc ∧ (distSq q.1 loc = s.dist → s.id ≤ q.2) := by
  rcases h with ⟨rfl, _⟩ | ⟨_, _, _, _, h⟩
  · simp at hq
  · exact h q hq

theorem Found.exists_point {loc : V3} {pts : List (V3 × Nat)} {s : Nearest} (h : Found loc pts s)
    (hne : s.id ≠ intMax ∨ pts ≠ []) : ∃ p ∈ pts, p.2 = s.id ∧ distSq p.1 loc = s.dist := by
  rcases h with ⟨h1, _, h2, _⟩ | ⟨p, hp, h1, h2, _⟩
  · rcases hne with h | h
    · exact absurd h2 h
    · exact absurd h1 h
  · exact ⟨p, hp, h1, h2⟩

/-- What the two exchanges find. -/
theorem exchange {loc : V3} {procs : List (List Piece)} (hne : allPoints procs ≠ [])
    (hr : Representable loc (allPoints procs)) :
    ∃ g id, minAll (procs.map fun b => (nearestLocal loc b).dist) = .ok g ∧
      minAll (procs.map fun b => (nearestLocal loc b).candidate g) = .ok id ∧ id < intMax ∧
      (∀ b ∈ procs, g ≤ (nearestLocal loc b).dist) ∧
      (∃ p ∈ allPoints procs, p.2 = id ∧ distSq p.1 loc = g) ∧
      ∀ q ∈ allPoints procs, g ≤ distSq q.1 loc ∧ (distSq q.1 loc = g → id ≤ q.2) := by
  obtain ⟨q0, hq0⟩ := List.exists_mem_of_ne_nil _ hne
  rw [allPoints_eq] at hq0
  obtain ⟨b0, hb0, hq0⟩ := List.mem_flatMap.mp hq0
  have hpn : procs ≠ [] := List.ne_nil_of_mem hb0
  have hr' : ∀ b ∈ procs, Representable loc (pointsOf b) := fun b hb p hp =>
    hr p (by rw [allPoints_eq]; exact List.mem_flatMap.mpr ⟨b, hb, hp⟩)
  have hf : ∀ b ∈ procs, Found loc (pointsOf b) (nearestLocal loc b) := fun b hb => nearestLocal_found (hr' b hb)
  obtain ⟨g, hg, hgm, hgl⟩ := minAll_ok (l := procs.map fun b => (nearestLocal loc b).dist) (by simpa using hpn)
  obtain ⟨id, hid, hidm, hidl⟩ := minAll_ok (l := procs.map fun b => (nearestLocal loc b).candidate g)
    (by simpa using hpn)
  have hgl' : ∀ b ∈ procs, g ≤ (nearestLocal loc b).dist := fun b hb => hgl _ (List.mem_map_of_mem hb)
  have hidl' : ∀ b ∈ procs, id ≤ (nearestLocal loc b).candidate g := fun b hb =>
    hidl _ (List.mem_map (f := fun b => (nearestLocal loc b).candidate g) |>.mpr ⟨b, hb, rfl⟩)
  -- some processor that has points attains the minimum
  have hat : ∃ b ∈ procs, pointsOf b ≠ [] ∧ (nearestLocal loc b).dist = g := by
    obtain ⟨b1, hb1, e⟩ := List.mem_map.mp hgm
    by_cases hb : pointsOf b1 = []
    · rcases hf b1 hb1 with ⟨_, h1, _⟩ | ⟨p, hp, _⟩
      · refine ⟨b0, hb0, List.ne_nil_of_mem hq0, le_antisymm ?_ (hgl' b0 hb0)⟩
        have h2 := ((hf b0 hb0).dist_le q0 hq0).1
        rw [← e, h1]
        exact h2.trans (hr' b0 hb0 q0 hq0).1
      · rw [hb] at hp
        simp at hp
    · exact ⟨b1, hb1, hb, e⟩
  have hlt : id < intMax := by
    obtain ⟨b, hb, hpb, e⟩ := hat
    obtain ⟨p, hp, e1, _⟩ := (hf b hb).exists_point (Or.inr hpb)
    have h1 := hidl' b hb
    rw [Nearest.candidate, if_pos e] at h1
    exact h1.trans_lt (by rw [← e1]; exact (hr' b hb p hp).2)
  refine ⟨g, id, hg, hid, hlt, hgl', ?_, ?_⟩
  · obtain ⟨b, hb, e⟩ := List.mem_map.mp hidm
    have e : (nearestLocal loc b).candidate g = id := e
    rw [Nearest.candidate] at e
    by_cases hd : (nearestLocal loc b).dist = g
    · rw [if_pos hd] at e
      obtain ⟨p, hp, e1, e2⟩ := (hf b hb).exists_point (Or.inl (by rw [e]; exact ne_of_lt hlt))
      refine ⟨p, ?_, e1.trans e, e2.trans hd⟩
      rw [allPoints_eq]
      exact List.mem_flatMap.mpr ⟨b, hb, hp⟩
    · rw [if_neg hd] at e
      exact absurd e.symm (ne_of_lt hlt)
  · intro q hq
    rw [allPoints_eq] at hq
    obtain ⟨b, hb, hq⟩ := List.mem_flatMap.mp hq
    obtain ⟨h1, h2⟩ := (hf b hb).dist_le q hq
    refine ⟨(hgl' b hb).trans h1, fun e => ?_⟩
    have hd : (nearestLocal loc b).dist = g := le_antisymm (by rw [← e]; exact h1) (hgl' b hb)
    have h3 := hidl' b hb
    rw [Nearest.candidate, if_pos hd] at h3
    exact h3.trans (h2 (by rw [e, hd]))

/-! ### The block and the value -/

theorem foldl_blocks_absent {α : Type} {id : Nat} {P : Piece → Prop} [DecidablePred P] {f : Piece → α} :
    ∀ {blocks : List Piece} {a : α}, (∀ b ∈ blocks, id ∉ b.gids) → (∀ b, P b → id ∈ b.gids) →
    blocks.foldl (fun acc b => if P b then f b else acc) a = a
  | [], _, _, _ => rfl
  | b :: bs, a, h, hP => by
    rw [List.foldl_cons, if_neg fun hb => h b (by simp) (hP b hb)]
    exact foldl_blocks_absent (fun b' hb' => h b' (List.mem_cons_of_mem _ hb')) hP

theorem foldl_blocks_present {α : Type} {id : Nat} {P : Piece → Prop} [DecidablePred P] {f : Piece → α} {blocks : List Piece}
    {b : Piece} {a : α} (hb : b ∈ blocks) (hPb : P b) (hP : ∀ b, P b → id ∈ b.gids)
    (hn : (blocks.flatMap Piece.gids).Nodup) :
    blocks.foldl (fun acc b => if P b then f b else acc) a = f b := by
  obtain ⟨l1, l2, rfl⟩ := List.append_of_mem hb
  rw [List.flatMap_append, List.flatMap_cons, List.nodup_append] at hn
  have h2 : ∀ b' ∈ l2, id ∉ b'.gids := by
    intro b' hb' hi
    have := (List.nodup_append.mp hn.2.1).2.2
    exact this id (hP b hPb) id (List.mem_flatMap.mpr ⟨b', hb', hi⟩) rfl
  rw [List.foldl_append, List.foldl_cons, if_pos hPb]
  exact foldl_blocks_absent h2 hP

theorem sum_single {α : Type} {f : α → Int} {g : α → ℝ} {l1 l2 : List α} {a : α} :
    ((∀ x ∈ l1 ++ l2, f x = 0) → ((l1 ++ a :: l2).map f).sum = f a) ∧
    ((∀ x ∈ l1 ++ l2, g x = 0) → ((l1 ++ a :: l2).map g).sum = g a) := by
  have key : ∀ {M : Type} [AddCommMonoid M] (h : α → M), (∀ x ∈ l1 ++ l2, h x = 0) →
      ((l1 ++ a :: l2).map h).sum = h a := by
    intro M _ h hz
    rw [List.map_append, List.map_cons, List.sum_append, List.sum_cons]
    have z : ∀ l : List α, (∀ x ∈ l, h x = 0) → (l.map h).sum = 0 := by
      intro l
      induction l with
      | nil => intro _; rfl
      | cons b l ih =>
        intro hl
        rw [List.map_cons, List.sum_cons, hl b (by simp), ih fun x hx => hl x (List.mem_cons_of_mem _ hx),
          add_zero]
    rw [z l1 fun x hx => hz x (List.mem_append_left _ hx), z l2 fun x hx => hz x (List.mem_append_right _ hx),
      zero_add, add_zero]
  exact ⟨key f, key g⟩

/-- The other processors do not have the point. -/
theorem split_owner {procs : List (List Piece)} {blocks : List Piece} {b : Piece} {id : Nat}
    (hn : OwnedOnce procs) (hp : blocks ∈ procs) (hb : b ∈ blocks) (hi : id ∈ b.gids) :
    ∃ l1 l2, procs = l1 ++ blocks :: l2 ∧ (∀ B ∈ l1 ++ l2, ∀ b' ∈ B, id ∉ b'.gids) ∧
      (blocks.flatMap Piece.gids).Nodup := by
  obtain ⟨l1, l2, rfl⟩ := List.append_of_mem hp
  rw [OwnedOnce, List.flatMap_append, List.flatMap_cons] at hn
  obtain ⟨_, h2, h3⟩ := List.nodup_append.mp hn
  obtain ⟨h4, _, h5⟩ := List.nodup_append.mp h2
  have hin : id ∈ blocks.flatMap fun b => b.gids := List.mem_flatMap.mpr ⟨b, hb, hi⟩
  refine ⟨l1, l2, rfl, ?_, h4⟩
  intro B hB b' hb' hi'
  have hin' : id ∈ B.flatMap fun b => b.gids := List.mem_flatMap.mpr ⟨b', hb', hi'⟩
  rcases List.mem_append.mp hB with hB | hB
  · exact h3 id (List.mem_flatMap.mpr ⟨B, hB, hin'⟩) id (List.mem_append_left _ hin) rfl
  · exact h5 id hin id (List.mem_flatMap.mpr ⟨B, hB, hin'⟩) rfl

theorem blockId_eq {procs : List (List Piece)} {blocks : List Piece} {b : Piece} {id : Nat}
    (hn : OwnedOnce procs) (hp : blocks ∈ procs) (hb : b ∈ blocks) (hi : id ∈ b.gids) :
    sumAll (procs.map (blockWith id)) = .ok b.id := by
  obtain ⟨l1, l2, rfl, ho, hd⟩ := split_owner hn hp hb hi
  rw [sumAll_ok (by simp), (sum_single (f := blockWith id) (g := fun _ => 0)).1]
  · rw [blockWith, foldl_blocks_present (id := id) (P := fun b => id ∈ b.gids) hb hi (fun _ h => h) hd]
  · intro B hB
    rw [blockWith]
    exact foldl_blocks_absent (id := id) (P := fun b => id ∈ b.gids) (ho B hB) fun _ h => h

theorem value_eq {procs : List (List Piece)} {blocks : List Piece} {b : Piece} {t : Tracked} {i : Nat}
    (n c : Nat) (hn : OwnedOnce procs) (hp : blocks ∈ procs) (hb : b ∈ blocks) (hi : b.gids[i]? = some t.id)
    (ht : t.blockId = b.id) : nearestValue n c t procs = .ok (b.data (n * i + c)) := by
  have hm : t.id ∈ b.gids := List.mem_of_getElem? hi
  obtain ⟨l1, l2, rfl, ho, hd⟩ := split_owner hn hp hb hm
  have hnb : b.gids.Nodup := (List.nodup_flatMap.mp hd).1 b hb
  rw [nearestValue, sumAll_ok (by simp), (sum_single (f := fun _ => 0) (g := nearestLocalValue n c t)).2]
  · rw [nearestLocalValue, foldl_blocks_present (id := t.id) (P := fun b => b.id = t.blockId ∧ t.id ∈ b.gids) hb ⟨ht.symm, hm⟩ (fun _ h => h.2) hd]
    obtain ⟨hlt, e⟩ := List.getElem?_eq_some_iff.mp hi
    rw [← e, hnb.idxOf_getElem i hlt]
  · intro B hB
    rw [nearestLocalValue]
    exact foldl_blocks_absent (id := t.id) (P := fun b => b.id = t.blockId ∧ t.id ∈ b.gids) (ho B hB) fun _ h => h.2

theorem mem_allPoints {procs : List (List Piece)} {p : V3 × Nat} (h : p ∈ allPoints procs) :
    ∃ blocks ∈ procs, ∃ b ∈ blocks, ∃ i : Nat, b.gids[i]? = some p.2 ∧ b.x i = p.1 := by
  obtain ⟨blocks, hp, h⟩ := List.mem_flatMap.mp h
  obtain ⟨b, hb, h⟩ := List.mem_flatMap.mp h
  obtain ⟨g, hg, rfl⟩ := List.mem_map.mp h
  exact ⟨blocks, hp, b, hb, g.2, List.mem_zipIdx_iff_getElem?.mp hg, rfl⟩

theorem mem_allPoints_of {procs : List (List Piece)} {blocks : List Piece} {b : Piece} {i g : Nat}
    (hp : blocks ∈ procs) (hb : b ∈ blocks) (hi : b.gids[i]? = some g) : (b.x i, g) ∈ allPoints procs :=
  List.mem_flatMap.mpr ⟨blocks, hp, List.mem_flatMap.mpr ⟨b, hb, List.mem_map.mpr
    ⟨(g, i), List.mem_zipIdx_iff_getElem?.mpr hi, rfl⟩⟩⟩

/-! ### Ties -/

/-- The points of `pts` at distance `d`. -/
def atDist (loc : V3) (d : ℝ) (pts : List (V3 × Nat)) : List (V3 × Nat) :=
  pts.filter fun p => distSq p.1 loc = d

theorem ties_visit {loc : V3} {pts : List (V3 × Nat)} {s : Nearest} (h : Found loc pts s) (p : V3 × Nat)
    (hd : distSq p.1 loc < dblMax) (ht : s.ties = true ↔ 1 < (atDist loc s.dist pts).length) :
    (s.visit loc p).ties = true ↔ 1 < (atDist loc (s.visit loc p).dist (pts ++ [p])).length := by
  have one : ∀ d, distSq p.1 loc = d → atDist loc d [p] = [p] := fun d hd => by
    rw [atDist, List.filter_cons_of_pos (by simpa using hd), List.filter_nil]
  have none : ∀ d, distSq p.1 loc ≠ d → atDist loc d [p] = [] := fun d hd => by
    rw [atDist, List.filter_cons_of_neg (by simpa using hd), List.filter_nil]
  have app : ∀ d, atDist loc d (pts ++ [p]) = atDist loc d pts ++ atDist loc d [p] := fun d => by
    rw [atDist, List.filter_append]
    rfl
  rcases lt_trichotomy (distSq p.1 loc) s.dist with hlt | heq | hgt
  · rw [Nearest.visit, if_pos hlt.le, if_pos (Or.inl hlt)]
    have h0 : atDist loc (distSq p.1 loc) pts = [] := by
      rw [atDist, List.filter_eq_nil_iff]
      intro q hq
      have := (h.dist_le q hq).1
      simp only [decide_eq_true_eq]
      exact fun e => absurd (hlt.trans_le this) (by rw [e]; exact lt_irrefl _)
    simp only
    rw [app, h0, one _ rfl]
    simp [ne_of_lt hlt]
  · have hp : pts ≠ [] := by
      rcases h with ⟨_, h1, _⟩ | ⟨q, hq, _⟩
      · rw [heq, h1] at hd
        exact absurd hd (lt_irrefl _)
      · exact List.ne_nil_of_mem hq
    obtain ⟨q, hq, _, e⟩ := h.exists_point (Or.inr hp)
    have h1 : 0 < (atDist loc s.dist pts).length :=
      List.length_pos_of_mem (List.mem_filter.mpr ⟨hq, by simpa using e⟩)
    have h2 : (s.visit loc p).dist = s.dist ∧ (s.visit loc p).ties = true := by
      rw [Nearest.visit, if_pos heq.le]
      split
      · exact ⟨heq, by simpa using heq⟩
      · exact ⟨rfl, by simpa using heq⟩
    rw [h2.1, h2.2, app, one _ heq, List.length_append]
    simp only [true_iff, List.length_singleton]
    omega
  · rw [Nearest.visit, if_neg (not_le.mpr hgt), app, none _ (ne_of_gt hgt), List.append_nil]
    exact ht

theorem ties_scan {loc : V3} : ∀ {ps pts : List (V3 × Nat)} {s : Nearest}, Found loc pts s →
    (∀ p ∈ ps, distSq p.1 loc < dblMax ∧ p.2 < intMax) → (s.ties = true ↔ 1 < (atDist loc s.dist pts).length) →
    ((ps.foldl (Nearest.visit loc) s).ties = true ↔
      1 < (atDist loc (ps.foldl (Nearest.visit loc) s).dist (pts ++ ps)).length)
  | [], pts, s, _, _, ht => by simpa using ht
  | p :: ps, pts, s, h, hr, ht => by
    have h0 := hr p (by simp)
    have h1 := ties_scan (ps := ps) (h.visit p h0.1.le h0.2) (fun q hq => hr q (List.mem_cons_of_mem _ hq))
      (ties_visit h p h0.1 ht)
    rw [List.foldl_cons]
    simpa using h1

theorem nearestLocal_ties {loc : V3} {blocks : List Piece}
    (h : ∀ p ∈ pointsOf blocks, distSq p.1 loc < dblMax ∧ p.2 < intMax) :
    (nearestLocal loc blocks).ties = true ↔
      1 < (atDist loc (nearestLocal loc blocks).dist (pointsOf blocks)).length := by
  rw [nearestLocal_eq]
  have := ties_scan (loc := loc) (pts := []) (s := ⟨dblMax, intMax, false⟩) (Or.inl ⟨rfl, rfl, rfl, rfl⟩) h
    (by simp [atDist])
  simpa using this

theorem two_of_mem {α : Type} {l : List α} {a b : α} (ha : a ∈ l) (hb : b ∈ l) (h : a ≠ b) : 1 < l.length := by
  cases l with
  | nil => simp at ha
  | cons x l =>
    cases l with
    | nil =>
      rw [List.mem_singleton] at ha hb
      exact absurd (ha.trans hb.symm) h
    | cons y l => simp

theorem pointsOf_ids (blocks : List Piece) : (pointsOf blocks).map Prod.snd = blocks.flatMap Piece.gids := by
  rw [pointsOf, List.map_flatMap]
  refine List.flatMap_congr fun b _ => ?_
  rw [Piece.points, List.map_map]
  show List.map (fun g : Nat × Nat => g.1) b.gids.zipIdx = _
  exact List.zipIdx_map_fst 0 b.gids

end Verif.Outputs
