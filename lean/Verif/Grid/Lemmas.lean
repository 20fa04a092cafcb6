import Verif.Grid.Spec
import Verif.Grid.Count
import Mathlib.Tactic.FieldSimp
import Mathlib.Tactic.LinearCombination

/-! # Generated meshes (helper lemmas) -/

namespace Verif.Grid

open Verif Verif.Mech Verif.Neigh

/-! ## One direction -/

theorem centersLoop_length : ∀ (n : Nat) (p d : ℝ), (centersLoop n p d).length = n
  | 0, _, _ => rfl
  | n + 1, p, d => by rw [centersLoop, List.length_cons, centersLoop_length n]

theorem centersLoop_getD : ∀ (n : Nat) (p d : ℝ) (i : Nat), i < n →
    (centersLoop n p d).getD i 0 = p + i * d
  | 0, _, _, _, h => absurd h (by omega)
  | n + 1, p, d, 0, _ => by simp [centersLoop]
  | n + 1, p, d, i + 1, h => by
      rw [centersLoop, List.getD_cons_succ, centersLoop_getD n (p + d) d i (by omega)]
      push_cast
      ring

theorem centers_getD {s : Spec} {i : Nat} (h : i < s.n) :
    s.centers.getD i 0 = mid s.x0 s.length s.n i := by
  rw [Spec.centers, centersLoop_getD _ _ _ _ h, mid, Spec.cellSize]
  ring

theorem reach_le {s : Spec} {h r : ℝ} {n : Nat} (e : s.reach h r = .ok n) : n ≤ s.n := by
  unfold Spec.reach at e
  split at e
  · injection e with e; omega
  · split at e
    · exact absurd e (by simp)
    · split at e
      · exact absurd e (by simp)
      · split at e <;> (injection e with e; omega)

theorem reach_enough {s : Spec} {h r : ℝ} {n D : Nat} (e : s.reach h r = .ok n)
    (hD : (D : ℝ) < h / (s.cellSize * r)) (hn : D < s.n) : D ≤ n := by
  have hfl : D ≤ truncate (h / (s.cellSize * r)) := by
    rw [truncate]
    exact Nat.le_floor hD.le
  unfold Spec.reach at e
  split at e
  · omega
  · split at e
    · exact absurd e (by simp)
    · split at e
      · exact absurd e (by simp)
      · split at e <;> (injection e with e; omega)

theorem reach_ok {s : Spec} {h r : ℝ} (hc : s.cellSize * r ≠ 0) (hp : 0 ≤ h / (s.cellSize * r)) :
    ∃ n, s.reach h r = .ok n := by
  unfold Spec.reach
  by_cases hn : s.n = 0
  · rw [if_pos hn]; exact ⟨_, rfl⟩
  · rw [if_neg hn, if_neg hc, if_neg (by linarith)]
    split <;> exact ⟨_, rfl⟩

theorem window_reach {s : Spec} {h : ℝ} {w : Window} (e : s.window h = .ok w) :
    s.reach h 1 = .ok w.reach ∧ w.n = s.n := by
  rw [Spec.window, Outcome.bind_eq_ok] at e
  obtain ⟨r, hr, e⟩ := e
  injection e with e
  subst e
  exact ⟨hr, rfl⟩

theorem mem_cells {w : Window} {i ii : Nat} (hr : w.reach ≤ w.n) (hi : i < w.n) :
    ii ∈ w.cells i ↔ ii < w.n ∧ ii ≤ i + w.reach ∧ i ≤ ii + w.reach := by
  rw [Window.cells, List.mem_map]
  simp only [List.mem_range, Window.numCells, Window.stop, Window.start]
  constructor
  · rintro ⟨t, ht, e⟩
    split at ht <;> split at ht <;> split at e <;> omega
  · rintro ⟨h1, h2, h3⟩
    refine ⟨ii - (if w.reach < i then i - w.reach else 0), ?_, ?_⟩
    · split <;> split <;> omega
    · split <;> omega

theorem cells_length (w : Window) (i : Nat) : (w.cells i).length = w.numCells i := by
  rw [Window.cells, List.length_map, List.length_range]

theorem cells_nodup (w : Window) (i : Nat) : (w.cells i).Nodup := by
  rw [Window.cells]
  exact List.Nodup.map (fun a b h => by simpa using h) List.nodup_range

theorem cells_count {w : Window} {i ii : Nat} (hr : w.reach ≤ w.n) (hi : i < w.n) :
    (w.cells i).count ii =
      if ii < w.n ∧ ii ≤ i + w.reach ∧ i ≤ ii + w.reach then 1 else 0 := by
  rw [(cells_nodup w i).count]
  exact if_congr (mem_cells hr hi) rfl rfl

/-! ## Neighbors -/

/-- All the cells made of the indices in the lists. -/
def triples (is js ks : List Nat) : List Cell :=
  ks.flatMap fun kk => js.flatMap fun jj => is.map fun ii => ⟨ii, jj, kk⟩

theorem triples_length (is js ks : List Nat) :
    (triples is js ks).length = is.length * js.length * ks.length := by
  rw [triples]
  simp only [List.length_flatMap, List.length_map, List.map_const', List.sum_replicate, smul_eq_mul]
  ring

theorem sum_ite_count (l : List Nat) (a v : Nat) :
    (l.map fun b => if b = a then v else 0).sum = l.count a * v := by
  induction l with
  | nil => simp
  | cons b l ih =>
      rw [List.map_cons, List.sum_cons, ih, List.count_cons]
      by_cases h : b = a
      · subst h; simp; ring
      · simp [h]

theorem triples_count (is js ks : List Nat) (c : Cell) :
    (triples is js ks).count c = is.count c.i * js.count c.j * ks.count c.k := by
  have h1 : ∀ jj kk : Nat, (is.map fun ii => (⟨ii, jj, kk⟩ : Cell)).count c =
      if jj = c.j then (if kk = c.k then is.count c.i else 0) else 0 := by
    intro jj kk
    induction is with
    | nil => simp
    | cons b l ih =>
        rw [List.map_cons, List.count_cons, ih, List.count_cons]
        cases c with
        | mk a b' c' =>
            by_cases hj : jj = b' <;> by_cases hk : kk = c' <;> by_cases hi : b = a <;> simp [hj, hk, hi]
  have h2 : ∀ kk : Nat, (js.flatMap fun jj => is.map fun ii => (⟨ii, jj, kk⟩ : Cell)).count c =
      if kk = c.k then js.count c.j * is.count c.i else 0 := by
    intro kk
    rw [List.count_flatMap]
    have : (List.count c ∘ fun jj => is.map fun ii => (⟨ii, jj, kk⟩ : Cell)) =
        fun jj => if jj = c.j then (if kk = c.k then is.count c.i else 0) else 0 := by
      funext jj
      exact h1 jj kk
    rw [this, sum_ite_count]
    split <;> simp
  rw [triples, List.count_flatMap]
  have : (List.count c ∘ fun kk => js.flatMap fun jj => is.map fun ii => (⟨ii, jj, kk⟩ : Cell)) =
      fun kk => if kk = c.k then js.count c.j * is.count c.i else 0 := by
    funext kk
    exact h2 kk
  rw [this, sum_ite_count]
  ring

theorem mem_triples {is js ks : List Nat} {c : Cell} :
    c ∈ triples is js ks ↔ c.i ∈ is ∧ c.j ∈ js ∧ c.k ∈ ks := by
  rw [triples]
  simp only [List.mem_flatMap, List.mem_map]
  constructor
  · rintro ⟨kk, hk, jj, hj, ii, hi, e⟩
    subst e
    exact ⟨hi, hj, hk⟩
  · rintro ⟨hi, hj, hk⟩
    exact ⟨c.k, hk, c.j, hj, c.i, hi, rfl⟩

open Classical in
theorem neighborsIn_eq (nx ny : Nat) (point : Cell → V3) (norm : Norm) (h : ℝ) (is js ks : List Nat)
    (c : Cell) :
    neighborsIn nx ny point norm h is js ks c =
      ((triples is js ks).filter fun d => decide (d ≠ c ∧ norm (point d) (point c) h)).map
        (Cell.gid nx ny) := by
  rw [neighborsIn, triples, List.filter_flatMap, List.map_flatMap]
  refine List.flatMap_congr fun kk _ => ?_
  rw [List.filter_flatMap, List.map_flatMap]
  refine List.flatMap_congr fun jj _ => ?_
  rw [List.filter_map, List.map_map]
  induction is with
  | nil => rfl
  | cons ii l ih =>
      rw [List.filterMap_cons, List.filter_cons]
      by_cases h1 : (⟨ii, jj, kk⟩ : Cell) = c
      · rw [if_pos h1, if_neg (by simp [h1])]
        exact ih
      · rw [if_neg h1]
        by_cases h2 : norm (point ⟨ii, jj, kk⟩) (point c) h
        · rw [if_pos h2, if_pos (by simp [h1, h2]), List.map_cons, ih]
          rfl
        · rw [if_neg h2, if_neg (by simp [h2])]
          exact ih

open Classical in
/-- How often a cell is listed. -/
theorem neighborsIn_count {nx ny : Nat} {point : Cell → V3} {norm : Norm} {h : ℝ}
    {is js ks : List Nat} {c d : Cell} (hi : ∀ ii ∈ is, ii < nx) (hj : ∀ jj ∈ js, jj < ny)
    (di : d.i < nx) (dj : d.j < ny) :
    (neighborsIn nx ny point norm h is js ks c).count (d.gid nx ny) =
      if d ≠ c ∧ norm (point d) (point c) h then is.count d.i * js.count d.j * ks.count d.k else 0 := by
  rw [neighborsIn_eq]
  have hcount : ∀ l : List Cell, (∀ e ∈ l, e.i < nx ∧ e.j < ny) →
      (l.map (Cell.gid nx ny)).count (d.gid nx ny) = l.count d := by
    intro l
    induction l with
    | nil => intro _; rfl
    | cons e l ih =>
        intro hl
        rw [List.map_cons, List.count_cons, List.count_cons,
          ih (fun e he => hl e (List.mem_cons_of_mem _ he))]
        congr 1
        have he := hl e List.mem_cons_self
        by_cases hed : e = d
        · simp [hed]
        · have : ¬ e.gid nx ny = d.gid nx ny := fun h' => hed (gid_inj he.1 he.2 di dj h')
          simp [hed, this]
  rw [hcount]
  · by_cases hp : d ≠ c ∧ norm (point d) (point c) h
    · rw [if_pos hp, List.count_filter (by simp only [decide_eq_true_eq]; exact hp), triples_count]
    · rw [if_neg hp, List.count_eq_zero]
      intro hm
      rw [List.mem_filter] at hm
      exact hp (by simpa only [decide_eq_true_eq] using hm.2)
  · intro e he
    rw [List.mem_filter, mem_triples] at he
    exact ⟨hi _ he.1.1, hj _ he.1.2.1⟩

open Classical in
/-- Everything listed is the id of a cell of the lists. -/
theorem mem_neighborsIn {nx ny : Nat} {point : Cell → V3} {norm : Norm} {h : ℝ}
    {is js ks : List Nat} {c : Cell} {g : Nat} (hg : g ∈ neighborsIn nx ny point norm h is js ks c) :
    ∃ d : Cell, d.i ∈ is ∧ d.j ∈ js ∧ d.k ∈ ks ∧ g = d.gid nx ny := by
  rw [neighborsIn_eq, List.mem_map] at hg
  obtain ⟨d, hd, e⟩ := hg
  rw [List.mem_filter, mem_triples] at hd
  exact ⟨d, hd.1.1, hd.1.2.1, hd.1.2.2, e.symm⟩

open Classical in
/-- There are fewer neighbors than cells in the lists, since the cell itself is skipped. -/
theorem neighborsIn_length {nx ny : Nat} {point : Cell → V3} {norm : Norm} {h : ℝ}
    {is js ks : List Nat} {c : Cell} (hi : c.i ∈ is) (hj : c.j ∈ js) (hk : c.k ∈ ks) :
    (neighborsIn nx ny point norm h is js ks c).length ≤ is.length * js.length * ks.length - 1 := by
  rw [neighborsIn_eq, List.length_map, ← triples_length is js ks]
  have hlt : ((triples is js ks).filter
      fun d => decide (d ≠ c ∧ norm (point d) (point c) h)).length < (triples is js ks).length := by
    rw [List.length_filter_lt_length_iff_exists]
    exact ⟨c, mem_triples.2 ⟨hi, hj, hk⟩, by simp⟩
  omega

/-! ## The data of the processors -/

theorem entries_eq : ∀ nbs : List (List Nat), entries nbs = encode nbs
  | [] => rfl
  | ns :: rest => by
      rw [entries, entries_eq rest]
      simp [encode]

theorem pointers_eq : ∀ (nbs : List (List Nat)) (s : Nat),
    pointers nbs s = (List.range nbs.length).map fun i => s + (encode (nbs.take i)).length
  | [], _ => rfl
  | ns :: rest, s => by
      rw [pointers, pointers_eq rest, List.length_cons, List.range_succ_eq_map, List.map_cons,
        List.map_map]
      congr 1
      refine List.map_congr_left fun i _ => ?_
      simp only [Function.comp, List.take_succ_cons, encode, List.flatMap_cons, List.length_append,
        List.length_cons]
      omega

theorem pointers_offsets (nbs : List (List Nat)) : pointers nbs 0 = offsets nbs := by
  rw [pointers_eq, offsets]
  refine List.map_congr_left fun i _ => ?_
  omega

theorem compute_spec {G : Generator} {my g : Nat} (hb : g + my ≤ G.total) :
    (G.compute my (cellAt G.nx G.ny g)).1 = cellAt G.nx G.ny (g + my) ∧
    (G.compute my (cellAt G.nx G.ny g)).2 =
      { globalNumPoints := G.total
        gids := (List.range my).map fun t => g + t
        x := (List.range my).map fun t => G.point (cellAt G.nx G.ny (g + t))
        volume := (List.range my).map fun t => G.volume (cellAt G.nx G.ny (g + t))
        reserved := my + ((List.range my).map fun t => G.bound (cellAt G.nx G.ny (g + t))).sum
        neighborhood := encode ((List.range my).map fun t => G.neighbors (cellAt G.nx G.ny (g + t)))
        neighborhoodPtr :=
          offsets ((List.range my).map fun t => G.neighbors (cellAt G.nx G.ny (g + t))) } := by
  obtain ⟨h1, h2⟩ := walk_eq (nx := G.nx) (ny := G.ny) (nz := G.nz) (my := my) (g := g) hb
  refine ⟨h2, ?_⟩
  rw [Generator.compute]
  simp only
  rw [sizeNeighborList_eq, h1, entries_eq, pointers_offsets]
  simp only [List.map_map, Function.comp_def, gid_cellAt]

/-- What a processor holds, by the ids of its points. -/
structure Holds (G : Generator) (d : Data) : Prop where
  globalNumPoints : d.globalNumPoints = G.total
  x : d.x = d.gids.map fun g => G.point (cellAt G.nx G.ny g)
  volume : d.volume = d.gids.map fun g => G.volume (cellAt G.nx G.ny g)
  neighborhood : d.neighborhood = encode (d.gids.map fun g => G.neighbors (cellAt G.nx G.ny g))
  neighborhoodPtr : d.neighborhoodPtr = offsets (d.gids.map fun g => G.neighbors (cellAt G.nx G.ny g))
  reserved : d.reserved = d.gids.length + (d.gids.map fun g => G.bound (cellAt G.nx G.ny g)).sum

theorem iterate_spec {G : Generator} : ∀ (counts : List Nat) (g : Nat), g + counts.sum ≤ G.total →
    ((G.iterate counts (cellAt G.nx G.ny g)).map Data.gids).flatten =
      (List.range counts.sum).map (fun t => g + t) ∧
    (G.iterate counts (cellAt G.nx G.ny g)).map (fun d => d.gids.length) = counts ∧
    ∀ d ∈ G.iterate counts (cellAt G.nx G.ny g), Holds G d
  | [], g, _ => by simp [Generator.iterate]
  | my :: rest, g, hb => by
      rw [List.sum_cons] at hb
      obtain ⟨h1, h2⟩ := compute_spec (G := G) (my := my) (g := g) (by omega)
      obtain ⟨i1, i2, i3⟩ := iterate_spec (G := G) rest (g + my) (by omega)
      rw [Generator.iterate, h1, h2]
      refine ⟨?_, ?_, ?_⟩
      · rw [List.map_cons, List.flatten_cons, i1, List.sum_cons, List.range_add, List.map_append,
          List.map_map]
        congr 1
        refine List.map_congr_left fun t _ => ?_
        show g + my + t = g + (my + t)
        omega
      · rw [List.map_cons, i2]
        congr 1
        rw [List.length_map, List.length_range]
      · intro d hd
        rw [List.mem_cons] at hd
        rcases hd with rfl | hd
        · constructor <;> simp [List.map_map, Function.comp_def]
        · exact i3 d hd

theorem cellsPerProc_ok {total procs : Nat} (h : procs ≠ 0) :
    cellsPerProc total procs =
      .ok (List.replicate (procs - 1) (total / procs) ++ [total / procs + total % procs]) := by
  rw [cellsPerProc, if_neg h]
  congr 1
  obtain ⟨p, rfl⟩ : ∃ p, procs = p + 1 := ⟨procs - 1, by omega⟩
  rw [Nat.add_sub_cancel, List.replicate_succ']
  rw [List.set_append_right _ _ (by simp)]
  simp

theorem cellsPerProc_sum {total procs : Nat} {l : List Nat} (h : cellsPerProc total procs = .ok l) :
    l.sum = total ∧ l.length = procs ∧ ∀ n ∈ l, n ≤ reservedCells l := by
  have hp : procs ≠ 0 := by
    intro e
    rw [cellsPerProc, if_pos e] at h
    exact absurd h (by simp)
  rw [cellsPerProc_ok hp] at h
  injection h with h
  subst h
  obtain ⟨p, rfl⟩ : ∃ p, procs = p + 1 := ⟨procs - 1, by omega⟩
  refine ⟨?_, by simp, ?_⟩
  · rw [List.sum_append, List.sum_replicate, List.sum_singleton, Nat.add_sub_cancel, smul_eq_mul]
    have := Nat.div_add_mod total (p + 1)
    calc p * (total / (p + 1)) + (total / (p + 1) + total % (p + 1))
        = (p + 1) * (total / (p + 1)) + total % (p + 1) := by ring
      _ = total := this
  · intro n hn
    rw [reservedCells, List.getLast?_append]
    simp only [List.getLast?_singleton, Option.some_or, Option.getD_some]
    rw [List.mem_append, List.mem_singleton] at hn
    rcases hn with hn | hn
    · rw [List.eq_of_mem_replicate hn]; omega
    · omega

theorem data_spec {G : Generator} {procs : Nat} {ds : List Data} (h : G.data procs = .ok ds) :
    ∃ counts, cellsPerProc G.total procs = .ok counts ∧
      ds.map (fun d => d.gids.length) = counts ∧
      (ds.map Data.gids).flatten = List.range G.total ∧ ∀ d ∈ ds, Holds G d := by
  rw [Generator.data, Outcome.bind_eq_ok] at h
  obtain ⟨counts, hc, h⟩ := h
  injection h with h
  subst h
  obtain ⟨hs, _, _⟩ := cellsPerProc_sum hc
  have h0 : cellAt G.nx G.ny 0 = ⟨0, 0, 0⟩ := by simp [cellAt]
  obtain ⟨i1, i2, i3⟩ := iterate_spec (G := G) counts 0 (by omega)
  rw [h0] at i1 i2 i3
  refine ⟨counts, hc, i2, ?_, i3⟩
  rw [i1, hs]
  simp

theorem data_describes {G : Generator} {procs : Nat} {ds : List Data} (h : G.data procs = .ok ds) :
    Describes ds G.total (fun g => G.point (cellAt G.nx G.ny g))
      (fun g => G.volume (cellAt G.nx G.ny g)) (fun g => G.neighbors (cellAt G.nx G.ny g)) := by
  obtain ⟨_, _, _, h2, h3⟩ := data_spec h
  exact ⟨h2, fun d hd => (h3 d hd).globalNumPoints, fun d hd => (h3 d hd).x,
    fun d hd => (h3 d hd).volume, fun d hd => (h3 d hd).neighborhood,
    fun d hd => (h3 d hd).neighborhoodPtr⟩

theorem encode_length_sum (nbs : List (List Nat)) :
    (encode nbs).length = nbs.length + (nbs.map List.length).sum := by
  induction nbs with
  | nil => rfl
  | cons ns l ih =>
      have : encode (ns :: l) = (ns.length :: ns) ++ encode l := by simp [encode]
      rw [this, List.length_append, ih, List.map_cons, List.sum_cons, List.length_cons,
        List.length_cons]
      omega

end Verif.Grid
