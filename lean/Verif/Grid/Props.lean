import Verif.Grid.BoxLemmas

/-! # Generated boxes (properties C113, C114, C115) -/

namespace Verif.Grid

open Verif Verif.Mech Verif.Neigh

/-! ## C113: the cells of a box -/

/-- C113.  Whatever the number of processors, they get data that together describe every cell of the
box once, in the order of the ids, with the middles and volumes of the cells. -/
theorem C113_cells {h : ℝ} {xs ys zs : Spec} {norm : Norm} {G : Generator} {procs : Nat}
    {ds : List Data} (hG : box h xs ys zs norm = .ok G) (hd : G.data procs = .ok ds) :
    ds.length = procs ∧ ∃ X V N, BoxMesh xs ys zs ds X V N := by
  refine ⟨?_, _, _, _, box_mesh hG hd⟩
  obtain ⟨counts, hc, hl, _, _⟩ := data_spec hd
  rw [← (cellsPerProc_sum hc).2.1, ← hl, List.length_map]

theorem flatten_volume {ds : List Data} {total : Nat} {X : Nat → V3} {V : Nat → ℝ}
    {N : Nat → List Nat} (h : Describes ds total X V N) :
    (ds.map Data.volume).flatten = (List.range total).map V := by
  rw [← h.gids, List.map_flatten, List.map_map]
  congr 1
  exact List.map_congr_left fun d hd => h.volume d hd

/-- C113.  The volumes of all the points add up to the volume of the box. -/
theorem C113_volume {h : ℝ} {xs ys zs : Spec} {norm : Norm} {G : Generator} {procs : Nat}
    {ds : List Data} (hG : box h xs ys zs norm = .ok G) (hd : G.data procs = .ok ds) (hx : 0 < xs.n)
    (hy : 0 < ys.n) (hz : 0 < zs.n) :
    totalVolume ds = xs.length * ys.length * zs.length := by
  have hM := box_mesh hG hd
  rw [totalVolume, flatten_volume hM.describes]
  have e : (List.range (xs.n * ys.n * zs.n)).map (fun g => G.volume (cellAt G.nx G.ny g)) =
      (List.range (xs.n * ys.n * zs.n)).map fun _ =>
        (xs.length / xs.n) * (ys.length / ys.n) * (zs.length / zs.n) :=
    List.map_congr_left fun g hg => hM.volume g (List.mem_range.1 hg)
  rw [e, List.map_const', List.sum_replicate, List.length_range, nsmul_eq_mul]
  push_cast
  have h1 : (xs.n : ℝ) ≠ 0 := by exact_mod_cast hx.ne'
  have h2 : (ys.n : ℝ) ≠ 0 := by exact_mod_cast hy.ne'
  have h3 : (zs.n : ℝ) ≠ 0 := by exact_mod_cast hz.ne'
  field_simp

theorem mid_inside {x0 L : ℝ} {n i : Nat} (hL : 0 < L) (hi : i < n) :
    x0 < mid x0 L n i ∧ mid x0 L n i < x0 + L := by
  have hn : (0 : ℝ) < n := by
    have : 0 < n := by omega
    exact_mod_cast this
  have hi' : (i : ℝ) + 1 ≤ n := by exact_mod_cast hi
  have hd : 0 < L / n := div_pos hL hn
  have e : (n : ℝ) * (L / n) = L := by field_simp
  have h0 : (0 : ℝ) ≤ i := Nat.cast_nonneg i
  rw [mid]
  constructor
  · nlinarith
  · have : ((i : ℝ) + 1 / 2) * (L / n) < n * (L / n) := mul_lt_mul_of_pos_right (by linarith) hd
    linarith

/-- C113.  All points lie inside the box. -/
theorem C113_inside {h : ℝ} {xs ys zs : Spec} {norm : Norm} {G : Generator} {procs : Nat}
    {ds : List Data} (hG : box h xs ys zs norm = .ok G) (hd : G.data procs = .ok ds)
    (hx : 0 < xs.length) (hy : 0 < ys.length) (hz : 0 < zs.length) :
    ∀ d ∈ ds, ∀ p ∈ d.x, (xs.x0 < p 0 ∧ p 0 < xs.x0 + xs.length) ∧
      (ys.x0 < p 1 ∧ p 1 < ys.x0 + ys.length) ∧ (zs.x0 < p 2 ∧ p 2 < zs.x0 + zs.length) := by
  have hM := box_mesh hG hd
  obtain ⟨_, _, _, _, _, _, eG⟩ := box_eq hG
  intro d hdm p hp
  rw [hM.describes.x d hdm, List.mem_map] at hp
  obtain ⟨g, hg, rfl⟩ := hp
  have hgt : g < xs.n * ys.n * zs.n := by
    rw [← List.mem_range, ← hM.describes.gids, List.mem_flatten]
    exact ⟨d.gids, List.mem_map_of_mem hdm, hg⟩
  subst eG
  obtain ⟨a1, a2, a3⟩ := cellAt_lt hgt
  simp only
  rw [boxPoint_eq a1 a2 a3]
  exact ⟨mid_inside hx a1, mid_inside hy a2, mid_inside hz a3⟩

/-- C113.  A box with sides of positive length, cut into cells, and a horizon that is not negative can
be made for any number of processors. -/
theorem C113_defined {h : ℝ} {xs ys zs : Spec} (norm : Norm) {procs : Nat} (hh : 0 ≤ h)
    (hx : 0 < xs.length) (hy : 0 < ys.length) (hz : 0 < zs.length) (nx : 0 < xs.n) (ny : 0 < ys.n)
    (nz : 0 < zs.n) (hp : 0 < procs) :
    ∃ G ds, box h xs ys zs norm = .ok G ∧ G.data procs = .ok ds := by
  have hw : ∀ s : Spec, 0 < s.length → 0 < s.n → ∃ w, s.window h = .ok w := by
    intro s hs hn
    have hn' : (0 : ℝ) < s.n := by exact_mod_cast hn
    have hc : 0 < s.cellSize * 1 := by rw [mul_one, Spec.cellSize]; exact div_pos hs hn'
    obtain ⟨r, hr⟩ := reach_ok (h := h) hc.ne' (div_nonneg hh hc.le)
    exact ⟨_, by rw [Spec.window, hr]; rfl⟩
  obtain ⟨w1, e1⟩ := hw xs hx nx
  obtain ⟨w2, e2⟩ := hw ys hy ny
  obtain ⟨w3, e3⟩ := hw zs hz nz
  have eG : ∃ G, box h xs ys zs norm = .ok G := by
    rw [box, e1, e2, e3]
    exact ⟨_, rfl⟩
  obtain ⟨G, eG⟩ := eG
  have : ∃ ds, G.data procs = .ok ds := by
    rw [Generator.data, cellsPerProc_ok (by omega)]
    exact ⟨_, rfl⟩
  obtain ⟨ds, ed⟩ := this
  exact ⟨G, ds, eG, ed⟩

theorem data_counts {G : Generator} {procs : Nat} {ds : List Data} (hd : G.data procs = .ok ds)
    {rank : Nat} (hr : rank < procs) :
    ∃ d, ds[rank]? = some d ∧ d.gids.length =
      if rank = procs - 1 then G.total / procs + G.total % procs else G.total / procs := by
  obtain ⟨counts, hc, hl, _, _⟩ := data_spec hd
  rw [cellsPerProc_ok (by omega)] at hc
  injection hc with hc
  subst hc
  have hlen : ds.length = procs := by
    have := congrArg List.length hl
    rw [List.length_map, List.length_append, List.length_replicate, List.length_singleton] at this
    omega
  refine ⟨ds[rank], List.getElem?_eq_getElem (by omega), ?_⟩
  have hg := congrArg (fun l => l[rank]?) hl
  simp only [List.getElem?_map] at hg
  rw [List.getElem?_eq_getElem (by omega : rank < ds.length), Option.map_some] at hg
  by_cases hl' : rank = procs - 1
  · rw [if_pos hl']
    rw [List.getElem?_append_right (by simp; omega), List.length_replicate] at hg
    rw [show rank - (procs - 1) = 0 by omega] at hg
    simpa using hg
  · rw [if_neg hl']
    rw [List.getElem?_append_left (by simp; omega), List.getElem?_replicate, if_pos (by omega)] at hg
    simpa using hg

/-- C113.  If there are at least as many cells as processors, every processor gets points: the same
number on all but the last, which gets the rest as well. -/
theorem C113_delivered {G : Generator} {procs : Nat} {ds : List Data} (hd : G.data procs = .ok ds)
    (hp : procs ≤ G.total) {rank : Nat} (hr : rank < procs) :
    ∃ d, ds[rank]? = some d ∧ deliver ds rank = some d ∧ 0 < d.gids.length ∧
      d.gids.length =
        if rank = procs - 1 then G.total / procs + G.total % procs else G.total / procs := by
  obtain ⟨d, e, hl⟩ := data_counts hd hr
  have hpos : 0 < G.total / procs := Nat.div_pos hp (by omega)
  have hlen : 0 < d.gids.length := by rw [hl]; split <;> omega
  refine ⟨d, e, ?_, hlen, hl⟩
  rw [deliver, e]
  simp only
  rw [if_pos (Or.inr hlen)]

/-- C113 fails with more processors than cells: the processors between the first and the last return
grid data that were never filled, not even with the number of points. -/
theorem C113_too_many {G : Generator} {procs : Nat} {ds : List Data} (hd : G.data procs = .ok ds)
    (hp : G.total < procs) {rank : Nat} (h0 : 0 < rank) (hr : rank + 1 < procs) :
    deliver ds rank = none := by
  obtain ⟨d, e, hl⟩ := data_counts hd (show rank < procs by omega)
  rw [if_neg (by omega), Nat.div_eq_of_lt hp] at hl
  rw [deliver, e]
  simp only
  rw [if_neg (by omega)]

/-- A box of 3 by 2 by 2 cells of side 1. -/
noncomputable def exX : Spec := ⟨3, 0, 3⟩
noncomputable def exY : Spec := ⟨2, 0, 2⟩

example : ∃ G ds, box (3 / 2) exX exY exY (normOf (some "Spherical")) = .ok G ∧ G.data 5 = .ok ds ∧
    ds.length = 5 ∧ totalVolume ds = 3 * 2 * 2 := by
  obtain ⟨G, ds, hG, hd⟩ := C113_defined (h := 3 / 2) (xs := exX) (ys := exY) (zs := exY)
    (normOf (some "Spherical")) (procs := 5) (by norm_num) (by norm_num [exX]) (by norm_num [exY])
    (by norm_num [exY]) (by norm_num [exX]) (by norm_num [exY]) (by norm_num [exY]) (by norm_num)
  exact ⟨G, ds, hG, hd, (C113_cells hG hd).1,
    C113_volume hG hd (by norm_num [exX]) (by norm_num [exY]) (by norm_num [exY])⟩

example : ∃ G ds, box (3 / 2) exX exY exY (normOf none) = .ok G ∧ G.data 20 = .ok ds ∧
    deliver ds 7 = none := by
  obtain ⟨G, ds, hG, hd⟩ := C113_defined (h := 3 / 2) (xs := exX) (ys := exY) (zs := exY)
    (normOf none) (procs := 20) (by norm_num) (by norm_num [exX]) (by norm_num [exY])
    (by norm_num [exY]) (by norm_num [exX]) (by norm_num [exY]) (by norm_num [exY]) (by norm_num)
  refine ⟨G, ds, hG, hd, C113_too_many hd ?_ (by norm_num) (by norm_num)⟩
  obtain ⟨_, _, _, _, _, _, eG⟩ := box_eq hG
  subst eG
  norm_num [Generator.total, exX, exY]

/-! ## C114: the neighbors in a box -/

open Classical in
/-- C114, with "NeighborhoodType" "Spherical": the list of a point holds every other point of the mesh
that is nearer than the horizon, once, and nothing else. -/
theorem C114_spherical {h : ℝ} {xs ys zs : Spec} {G : Generator} {procs : Nat} {ds : List Data}
    (hG : box h xs ys zs (normOf (some "Spherical")) = .ok G) (hd : G.data procs = .ok ds) (hh : 0 ≤ h)
    (hx : 0 < xs.length) (hy : 0 < ys.length) (hz : 0 < zs.length) :
    ∃ X V N, BoxMesh xs ys zs ds X V N ∧
      ∀ g, g < xs.n * ys.n * zs.n → ∀ g', (N g).count g' =
        if g' < xs.n * ys.n * zs.n ∧ g' ≠ g ∧ distance (X g) (X g') < h then 1 else 0 := by
  have hM := box_mesh hG hd
  refine ⟨_, _, _, hM, ?_⟩
  intro g hg g'
  by_cases hg' : g' < xs.n * ys.n * zs.n
  · obtain ⟨rx, ry, rz, r1, r2, r3, hc⟩ := box_count hG
    rw [hc g g' hg hg']
    refine if_congr ?_ rfl rfl
    have hn : normOf (some "Spherical") = spherical := by rw [normOf, if_pos rfl]
    rw [hn, spherical_iff hh]
    constructor
    · rintro ⟨h1, h2, _⟩
      exact ⟨hg', h1, h2⟩
    · rintro ⟨_, h1, h2⟩
      refine ⟨h1, h2, ?_⟩
      obtain ⟨_, _, _, _, _, _, eG⟩ := box_eq hG
      subst eG
      obtain ⟨a1, a2, a3⟩ := cellAt_lt hg
      obtain ⟨b1, b2, b3⟩ := cellAt_lt hg'
      simp only at h2 ⊢
      rw [boxPoint_eq a1 a2 a3, boxPoint_eq b1 b2 b3] at h2
      have d0 := distance_bounds h2 0
      have d1 := distance_bounds h2 1
      have d2 := distance_bounds h2 2
      exact ⟨(within_reach r1 hx a1 b1 d0).symm, (within_reach r2 hy a2 b2 d1).symm,
        (within_reach r3 hz a3 b3 d2).symm⟩
  · rw [if_neg (fun q => hg' q.1), List.count_eq_zero]
    intro hm
    exact hg' (box_mem hG hg hm)

/-- C114 without that setting (`_partial`): the list of a point holds every other point nearer than the
horizon and no point twice, but what is listed is only known to be a point of the mesh whose coordinates
differ by at most the horizon and half a cell.  Missing: that it is nearer than the horizon
(`C114_default_broken`). -/
theorem C114_default_partial {h : ℝ} {xs ys zs : Spec} {type : Option String} {G : Generator}
    {procs : Nat} {ds : List Data} (hG : box h xs ys zs (normOf type) = .ok G)
    (hd : G.data procs = .ok ds) (ht : type ≠ some "Spherical") (hh : 0 ≤ h) (hx : 0 < xs.length)
    (hy : 0 < ys.length) (hz : 0 < zs.length) :
    ∃ X V N, BoxMesh xs ys zs ds X V N ∧
      ∀ g, g < xs.n * ys.n * zs.n → (N g).Nodup ∧
        (∀ g', g' < xs.n * ys.n * zs.n → g' ≠ g → distance (X g) (X g') < h → g' ∈ N g) ∧
        ∀ g' ∈ N g, g' < xs.n * ys.n * zs.n ∧ g' ≠ g ∧
          |X g 0 - X g' 0| ≤ h + xs.length / xs.n / 2 ∧
          |X g 1 - X g' 1| ≤ h + ys.length / ys.n / 2 ∧
          |X g 2 - X g' 2| ≤ h + zs.length / zs.n / 2 := by
  classical
  have hM := box_mesh hG hd
  refine ⟨_, _, _, hM, ?_⟩
  intro g hg
  obtain ⟨rx, ry, rz, r1, r2, r3, hc⟩ := box_count hG
  have hn : normOf type = noOp := by rw [normOf, if_neg ht]
  rw [hn] at hc
  obtain ⟨_, _, _, _, _, _, eG⟩ := box_eq hG
  refine ⟨?_, ?_, ?_⟩
  · rw [List.nodup_iff_count_le_one]
    intro g'
    by_cases hg' : g' < xs.n * ys.n * zs.n
    · rw [hc g g' hg hg']; split <;> omega
    · rw [List.count_eq_zero.2 (fun hm => hg' (box_mem hG hg hm))]; omega
  · intro g' hg' hne hdist
    rw [← List.count_pos_iff, hc g g' hg hg', if_pos]
    · norm_num
    · refine ⟨hne, trivial, ?_⟩
      subst eG
      obtain ⟨a1, a2, a3⟩ := cellAt_lt hg
      obtain ⟨b1, b2, b3⟩ := cellAt_lt hg'
      simp only at hdist ⊢
      rw [boxPoint_eq a1 a2 a3, boxPoint_eq b1 b2 b3] at hdist
      have d0 := distance_bounds hdist 0
      have d1 := distance_bounds hdist 1
      have d2 := distance_bounds hdist 2
      exact ⟨(within_reach r1 hx a1 b1 d0).symm, (within_reach r2 hy a2 b2 d1).symm,
        (within_reach r3 hz a3 b3 d2).symm⟩
  · intro g' hm
    have hg' := box_mem hG hg hm
    have hcnt := List.count_pos_iff.2 hm
    rw [hc g g' hg hg'] at hcnt
    split at hcnt
    · rename_i hP
      obtain ⟨h1, _, ⟨p1, p2⟩, ⟨p3, p4⟩, p5, p6⟩ := hP
      refine ⟨hg', h1, ?_⟩
      subst eG
      obtain ⟨a1, a2, a3⟩ := cellAt_lt hg
      obtain ⟨b1, b2, b3⟩ := cellAt_lt hg'
      simp only at p1 p2 p3 p4 p5 p6 ⊢
      rw [boxPoint_eq a1 a2 a3, boxPoint_eq b1 b2 b3]
      have key : ∀ (s : Spec) (i j r : Nat), s.reach h 1 = .ok r → 0 < s.length → i < s.n →
          j ≤ i + r → i ≤ j + r →
          |mid s.x0 s.length s.n i - mid s.x0 s.length s.n j| ≤ h + s.length / s.n / 2 := by
        intro s i j r hr hL hi q1 q2
        have hb := reach_bound hr hL (by omega) hh
        have hn' : (0 : ℝ) < s.n := by
          have : 0 < s.n := by omega
          exact_mod_cast this
        have hdx : 0 < s.length / s.n := div_pos hL hn'
        have he : mid s.x0 s.length s.n i - mid s.x0 s.length s.n j =
            ((i : ℝ) - j) * (s.length / s.n) := by
          rw [mid, mid]; ring
        rw [he, abs_mul, abs_of_pos hdx]
        refine le_trans (mul_le_mul_of_nonneg_right ?_ hdx.le) hb
        have q1' : (j : ℝ) ≤ i + r := by exact_mod_cast q1
        have q2' : (i : ℝ) ≤ j + r := by exact_mod_cast q2
        rw [abs_le]
        constructor <;> linarith
      exact ⟨key xs _ _ rx r1 hx a1 p1 p2, key ys _ _ ry r2 hy a2 p3 p4, key zs _ _ rz r3 hz a3 p5 p6⟩
    · exact absurd hcnt (by omega)

/-- C114.  With either test, a point is in the list of another as often as the other is in its own:
bonds come in pairs. -/
theorem C114_symmetric {h : ℝ} {xs ys zs : Spec} {type : Option String} {G : Generator} {procs : Nat}
    {ds : List Data} (hG : box h xs ys zs (normOf type) = .ok G) (hd : G.data procs = .ok ds) :
    ∃ X V N, BoxMesh xs ys zs ds X V N ∧
      ∀ g g', g < xs.n * ys.n * zs.n → g' < xs.n * ys.n * zs.n → (N g).count g' = (N g').count g := by
  classical
  refine ⟨_, _, _, box_mesh hG hd, ?_⟩
  intro g g' hg hg'
  obtain ⟨rx, ry, rz, _, _, _, hc⟩ := box_count hG
  rw [hc g g' hg hg', hc g' g hg' hg]
  refine if_congr ?_ rfl rfl
  have hsym : ∀ p q : V3, normOf type p q h ↔ normOf type q p h := by
    intro p q
    rw [normOf]
    split
    · rw [spherical, spherical]
      constructor <;> intro e <;> linarith
    · exact Iff.rfl
  rw [hsym]
  constructor
  · rintro ⟨h1, h2, ⟨p1, p2⟩, ⟨p3, p4⟩, p5, p6⟩
    exact ⟨h1.symm, h2, ⟨p2, p1⟩, ⟨p4, p3⟩, p6, p5⟩
  · rintro ⟨h1, h2, ⟨p1, p2⟩, ⟨p3, p4⟩, p5, p6⟩
    exact ⟨h1.symm, h2, ⟨p2, p1⟩, ⟨p4, p3⟩, p6, p5⟩

/-- Two cells of side 1 in a row. -/
noncomputable def twoCells : Spec := ⟨2, 0, 2⟩
noncomputable def oneCell : Spec := ⟨1, 0, 1⟩

theorem reach_example (s : Spec) (hc : s.length / s.n = 1) (hn : 0 < s.n) :
    s.reach (3 / 5) 1 = .ok 1 := by
  have ht : truncate (3 / 5 : ℝ) = 0 := by
    rw [truncate, Nat.floor_eq_zero]; norm_num
  unfold Spec.reach
  simp only [Spec.cellSize, hc, mul_one, div_one, ht]
  rw [if_neg (by omega), if_neg (by norm_num), if_neg (by norm_num), if_pos (by norm_num)]
  congr 1
  omega

/-- C114 fails without that setting: in a box of two cells of side 1 and with a horizon of 0.6 the points
are neighbors, though their distance is 1. -/
theorem C114_default_broken :
    ∃ G ds, box (3 / 5) twoCells oneCell oneCell (normOf none) = .ok G ∧ G.data 1 = .ok ds ∧
      ∃ X V N, BoxMesh twoCells oneCell oneCell ds X V N ∧ 1 ∈ N 0 ∧ distance (X 0) (X 1) = 1 := by
  classical
  obtain ⟨G, ds, hG, hd⟩ := C113_defined (h := 3 / 5) (xs := twoCells) (ys := oneCell) (zs := oneCell)
    (normOf none) (procs := 1) (by norm_num) (by norm_num [twoCells]) (by norm_num [oneCell])
    (by norm_num [oneCell]) (by norm_num [twoCells]) (by norm_num [oneCell]) (by norm_num [oneCell])
    (by norm_num)
  have hM := box_mesh hG hd
  refine ⟨G, ds, hG, hd, _, _, _, hM, ?_, ?_⟩
  · obtain ⟨rx, ry, rz, r1, r2, r3, hc⟩ := box_count hG
    rw [reach_example _ (by norm_num [twoCells]) (by norm_num [twoCells])] at r1
    injection r1 with r1
    subst r1
    obtain ⟨_, _, _, _, _, _, eG⟩ := box_eq hG
    rw [← List.count_pos_iff, hc 0 1 (by norm_num [twoCells, oneCell]) (by norm_num [twoCells, oneCell]),
      if_pos]
    · norm_num
    · have hn : normOf none = noOp := by rw [normOf, if_neg (by simp)]
      rw [hn]
      subst eG
      refine ⟨by norm_num, trivial, ?_, ?_, ?_⟩ <;> simp [cellAt, twoCells, oneCell]
  · have h0 := hM.position 0 0 0 (by norm_num [twoCells]) (by norm_num [oneCell]) (by norm_num [oneCell])
    have h1 := hM.position 1 0 0 (by norm_num [twoCells]) (by norm_num [oneCell]) (by norm_num [oneCell])
    simp only [Nat.mul_zero, Nat.add_zero] at h0 h1
    rw [h0, h1, distance]
    simp [mid, twoCells, oneCell]

example : ∃ G ds, box (3 / 2) exX exY exY (normOf (some "Spherical")) = .ok G ∧ G.data 2 = .ok ds ∧
    ∃ X V N, BoxMesh exX exY exY ds X V N ∧ (N 0).count 1 = 1 ∧ (N 0).count 2 = 0 := by
  classical
  obtain ⟨G, ds, hG, hd⟩ := C113_defined (h := 3 / 2) (xs := exX) (ys := exY) (zs := exY)
    (normOf (some "Spherical")) (procs := 2) (by norm_num) (by norm_num [exX]) (by norm_num [exY])
    (by norm_num [exY]) (by norm_num [exX]) (by norm_num [exY]) (by norm_num [exY]) (by norm_num)
  obtain ⟨X, V, N, hM, hN⟩ := C114_spherical hG hd (by norm_num) (by norm_num [exX])
    (by norm_num [exY]) (by norm_num [exY])
  have h0 := hM.position 0 0 0 (by norm_num [exX]) (by norm_num [exY]) (by norm_num [exY])
  have h1 := hM.position 1 0 0 (by norm_num [exX]) (by norm_num [exY]) (by norm_num [exY])
  have h2 := hM.position 2 0 0 (by norm_num [exX]) (by norm_num [exY]) (by norm_num [exY])
  simp only [Nat.mul_zero, Nat.add_zero] at h0 h1 h2
  refine ⟨G, ds, hG, hd, X, V, N, hM, ?_, ?_⟩
  · rw [hN 0 (by norm_num [exX, exY]), if_pos]
    refine ⟨by norm_num [exX, exY], by norm_num, ?_⟩
    rw [h0, h1, distance, Real.sqrt_lt (by positivity) (by norm_num)]
    simp only [mid, exX, exY, Matrix.cons_val_zero, Matrix.cons_val_one, Matrix.cons_val]
    norm_num
  · rw [hN 0 (by norm_num [exX, exY]), if_neg]
    rintro ⟨_, _, hlt⟩
    rw [h0, h2, distance, Real.sqrt_lt (by positivity) (by norm_num)] at hlt
    simp only [mid, exX, exY, Matrix.cons_val_zero, Matrix.cons_val_one, Matrix.cons_val] at hlt
    norm_num at hlt

end Verif.Grid
