import Verif.Grid.Lemmas

/-! # Boxes (helper lemmas) -/

namespace Verif.Grid

open Verif Verif.Mech Verif.Neigh

theorem box_eq {h : ℝ} {xs ys zs : Spec} {norm : Norm} {G : Generator}
    (e : box h xs ys zs norm = .ok G) :
    ∃ hx hy hz, xs.window h = .ok hx ∧ ys.window h = .ok hy ∧ zs.window h = .ok hz ∧
      G = { nx := xs.n, ny := ys.n, nz := zs.n
            point := boxPoint xs ys zs
            volume := fun _ => xs.cellSize * ys.cellSize * zs.cellSize
            neighbors := fun c => neighborsIn xs.n ys.n (boxPoint xs ys zs) norm h
              (hx.cells c.i) (hy.cells c.j) (hz.cells c.k) c
            bound := fun c => hx.numCells c.i * hy.numCells c.j * hz.numCells c.k - 1 } := by
  rw [box, Outcome.bind_eq_ok] at e
  obtain ⟨hx, h1, e⟩ := e
  rw [Outcome.bind_eq_ok] at e
  obtain ⟨hy, h2, e⟩ := e
  rw [Outcome.bind_eq_ok] at e
  obtain ⟨hz, h3, e⟩ := e
  injection e with e
  exact ⟨hx, hy, hz, h1, h2, h3, e.symm⟩

theorem boxPoint_eq {xs ys zs : Spec} {c : Cell} (hi : c.i < xs.n) (hj : c.j < ys.n) (hk : c.k < zs.n) :
    boxPoint xs ys zs c =
      ![mid xs.x0 xs.length xs.n c.i, mid ys.x0 ys.length ys.n c.j, mid zs.x0 zs.length zs.n c.k] := by
  rw [boxPoint, centers_getD hi, centers_getD hj, centers_getD hk]

theorem box_mesh {h : ℝ} {xs ys zs : Spec} {norm : Norm} {G : Generator} {procs : Nat} {ds : List Data}
    (e : box h xs ys zs norm = .ok G) (hd : G.data procs = .ok ds) :
    BoxMesh xs ys zs ds (fun g => G.point (cellAt G.nx G.ny g))
      (fun g => G.volume (cellAt G.nx G.ny g)) (fun g => G.neighbors (cellAt G.nx G.ny g)) := by
  have hD := data_describes hd
  obtain ⟨hx, hy, hz, _, _, _, eG⟩ := box_eq e
  subst eG
  refine ⟨hD, ?_, ?_⟩
  · intro i j k hi hj hk
    show boxPoint xs ys zs (cellAt xs.n ys.n (i + xs.n * (j + ys.n * k))) = _
    rw [cellAt_of k hi hj, boxPoint_eq hi hj hk]
  · intro g _
    rfl

theorem prod_ite (P A B C : Prop) [Decidable P] [Decidable A] [Decidable B] [Decidable C]
    [Decidable (P ∧ A ∧ B ∧ C)] :
    (if P then (if A then 1 else 0) * (if B then 1 else 0) * (if C then 1 else 0) else 0 : Nat) =
      if P ∧ A ∧ B ∧ C then 1 else 0 := by
  by_cases hP : P <;> by_cases hA : A <;> by_cases hB : B <;> by_cases hC : C <;> simp [hP, hA, hB, hC]

open Classical in
theorem box_count {h : ℝ} {xs ys zs : Spec} {norm : Norm} {G : Generator}
    (e : box h xs ys zs norm = .ok G) :
    ∃ rx ry rz, xs.reach h 1 = .ok rx ∧ ys.reach h 1 = .ok ry ∧ zs.reach h 1 = .ok rz ∧
      ∀ g g', g < xs.n * ys.n * zs.n → g' < xs.n * ys.n * zs.n →
        (G.neighbors (cellAt G.nx G.ny g)).count g' =
          if g' ≠ g ∧ norm (G.point (cellAt G.nx G.ny g')) (G.point (cellAt G.nx G.ny g)) h ∧
            ((cellAt G.nx G.ny g').i ≤ (cellAt G.nx G.ny g).i + rx ∧
              (cellAt G.nx G.ny g).i ≤ (cellAt G.nx G.ny g').i + rx) ∧
            ((cellAt G.nx G.ny g').j ≤ (cellAt G.nx G.ny g).j + ry ∧
              (cellAt G.nx G.ny g).j ≤ (cellAt G.nx G.ny g').j + ry) ∧
            ((cellAt G.nx G.ny g').k ≤ (cellAt G.nx G.ny g).k + rz ∧
              (cellAt G.nx G.ny g).k ≤ (cellAt G.nx G.ny g').k + rz) then 1 else 0 := by
  obtain ⟨hx, hy, hz, e1, e2, e3, eG⟩ := box_eq e
  obtain ⟨r1, n1⟩ := window_reach e1
  obtain ⟨r2, n2⟩ := window_reach e2
  obtain ⟨r3, n3⟩ := window_reach e3
  have l1 := reach_le r1
  have l2 := reach_le r2
  have l3 := reach_le r3
  refine ⟨hx.reach, hy.reach, hz.reach, r1, r2, r3, ?_⟩
  intro g g' hg hg'
  subst eG
  simp only
  obtain ⟨a1, a2, a3⟩ := cellAt_lt hg
  obtain ⟨b1, b2, b3⟩ := cellAt_lt hg'
  have hne : (cellAt xs.n ys.n g' ≠ cellAt xs.n ys.n g) ↔ g' ≠ g := by
    constructor
    · intro h1 h2; exact h1 (by rw [h2])
    · intro h1 h2
      apply h1
      have := congrArg (Cell.gid xs.n ys.n) h2
      rwa [gid_cellAt, gid_cellAt] at this
  have hcount := neighborsIn_count (nx := xs.n) (ny := ys.n) (point := boxPoint xs ys zs)
    (norm := norm) (h := h) (is := hx.cells (cellAt xs.n ys.n g).i)
    (js := hy.cells (cellAt xs.n ys.n g).j) (ks := hz.cells (cellAt xs.n ys.n g).k)
    (c := cellAt xs.n ys.n g) (d := cellAt xs.n ys.n g')
    (fun ii hii => by
      have := ((mem_cells (by omega) (by omega)).1 hii).1
      omega)
    (fun jj hjj => by
      have := ((mem_cells (by omega) (by omega)).1 hjj).1
      omega) b1 b2
  rw [gid_cellAt] at hcount
  rw [hcount, cells_count (by omega) (by omega), cells_count (by omega) (by omega),
    cells_count (by omega) (by omega), n1, n2, n3]
  simp only [b1, b2, b3, true_and]
  rw [prod_ite]
  refine if_congr ?_ rfl rfl
  rw [hne, and_assoc]

/-- Everything listed is the id of a cell. -/
theorem box_mem {h : ℝ} {xs ys zs : Spec} {norm : Norm} {G : Generator}
    (e : box h xs ys zs norm = .ok G) {g g' : Nat} (hg : g < xs.n * ys.n * zs.n)
    (hm : g' ∈ G.neighbors (cellAt G.nx G.ny g)) : g' < xs.n * ys.n * zs.n := by
  obtain ⟨hx, hy, hz, e1, e2, e3, eG⟩ := box_eq e
  obtain ⟨r1, n1⟩ := window_reach e1
  obtain ⟨r2, n2⟩ := window_reach e2
  obtain ⟨r3, n3⟩ := window_reach e3
  have l1 := reach_le r1
  have l2 := reach_le r2
  have l3 := reach_le r3
  subst eG
  simp only at hm
  obtain ⟨a1, a2, a3⟩ := cellAt_lt hg
  obtain ⟨d, d1, d2, d3, rfl⟩ := mem_neighborsIn hm
  have b1 := ((mem_cells (by omega) (by omega)).1 d1).1
  have b2 := ((mem_cells (by omega) (by omega)).1 d2).1
  have b3 := ((mem_cells (by omega) (by omega)).1 d3).1
  rw [n1] at b1
  rw [n2] at b2
  rw [n3] at b3
  rw [Cell.gid]
  have h1 : d.j * xs.n + xs.n ≤ ys.n * xs.n := by
    calc d.j * xs.n + xs.n = (d.j + 1) * xs.n := by ring
      _ ≤ ys.n * xs.n := Nat.mul_le_mul_right _ (by omega)
  have h2 : d.k * (xs.n * ys.n) + xs.n * ys.n ≤ zs.n * (xs.n * ys.n) := by
    calc d.k * (xs.n * ys.n) + xs.n * ys.n = (d.k + 1) * (xs.n * ys.n) := by ring
      _ ≤ zs.n * (xs.n * ys.n) := Nat.mul_le_mul_right _ (by omega)
  have h3 : d.k * xs.n * ys.n = d.k * (xs.n * ys.n) := by ring
  have h4 : xs.n * ys.n * zs.n = zs.n * (xs.n * ys.n) := by ring
  have h5 : ys.n * xs.n = xs.n * ys.n := by ring
  omega

/-- Cells whose middles differ by less than the horizon are within reach of each other. -/
theorem within_reach {s : Spec} {h : ℝ} {r i j : Nat} (hr : s.reach h 1 = .ok r) (hL : 0 < s.length)
    (hi : i < s.n) (hj : j < s.n)
    (hd : |mid s.x0 s.length s.n i - mid s.x0 s.length s.n j| < h) : i ≤ j + r ∧ j ≤ i + r := by
  have hn : (0 : ℝ) < s.n := by
    have : 0 < s.n := by omega
    exact_mod_cast this
  have hdx : 0 < s.length / s.n := div_pos hL hn
  have he : mid s.x0 s.length s.n i - mid s.x0 s.length s.n j = ((i : ℝ) - j) * (s.length / s.n) := by
    rw [mid, mid]; ring
  rw [he, abs_mul, abs_of_pos hdx] at hd
  have hq : |(i : ℝ) - j| < h / (s.cellSize * 1) := by
    rw [mul_one, Spec.cellSize, lt_div_iff₀ hdx]
    exact hd
  constructor
  · by_contra hc
    have hD := reach_enough (D := i - j) hr ?_ (by omega)
    · omega
    · rw [Nat.cast_sub (by omega)]
      exact lt_of_le_of_lt (le_abs_self _) hq
  · by_contra hc
    have hD := reach_enough (D := j - i) hr ?_ (by omega)
    · omega
    · rw [Nat.cast_sub (by omega)]
      refine lt_of_le_of_lt ?_ hq
      rw [abs_sub_comm]
      exact le_abs_self _

theorem spherical_iff {p q : V3} {h : ℝ} (hh : 0 ≤ h) : spherical q p h ↔ distance p q < h := by
  rw [spherical, distance, Real.sqrt_lt (by positivity) hh]
  constructor
  · intro e; linarith
  · intro e; linarith

theorem distance_bounds {p q : V3} {h : ℝ} (hh : distance p q < h) (a : Fin 3) : |p a - q a| < h := by
  refine lt_of_le_of_lt ?_ hh
  rw [← Real.sqrt_sq_eq_abs, distance]
  apply Real.sqrt_le_sqrt
  have h0 := sq_nonneg (p 0 - q 0)
  have h1 := sq_nonneg (p 1 - q 1)
  have h2 := sq_nonneg (p 2 - q 2)
  fin_cases a
  · show (p 0 - q 0) ^ 2 ≤ _; linarith
  · show (p 1 - q 1) ^ 2 ≤ _; linarith
  · show (p 2 - q 2) ^ 2 ≤ _; linarith

/-- A reach is at most the horizon and half a cell. -/
theorem reach_bound {s : Spec} {h : ℝ} {r : Nat} (hr : s.reach h 1 = .ok r) (hL : 0 < s.length)
    (hn : 0 < s.n) (hh : 0 ≤ h) : (r : ℝ) * (s.length / s.n) ≤ h + (s.length / s.n) / 2 := by
  have hn' : (0 : ℝ) < s.n := by exact_mod_cast hn
  have hdx : 0 < s.length / s.n := div_pos hL hn'
  have hq : 0 ≤ h / (s.length / s.n) := div_nonneg hh hdx.le
  have hfl : (truncate (h / (s.length / s.n)) : ℝ) ≤ h / (s.length / s.n) := by
    rw [truncate]; exact Nat.floor_le hq
  have key : (r : ℝ) ≤ h / (s.length / s.n) + 1 / 2 := by
    unfold Spec.reach at hr
    simp only [mul_one, Spec.cellSize] at hr
    rw [if_neg (by omega), if_neg hdx.ne', if_neg (by linarith)] at hr
    split at hr
    · rename_i hhalf
      injection hr with hr
      rw [abs_of_nonneg (by linarith)] at hhalf
      have : (r : ℝ) ≤ truncate (h / (s.length / s.n)) + 1 := by
        rw [← hr]
        exact_mod_cast Nat.min_le_left _ _
      linarith
    · injection hr with hr
      have : (r : ℝ) ≤ truncate (h / (s.length / s.n)) := by
        rw [← hr]
        exact_mod_cast Nat.min_le_left _ _
      linarith
  calc (r : ℝ) * (s.length / s.n) ≤ (h / (s.length / s.n) + 1 / 2) * (s.length / s.n) :=
        mul_le_mul_of_nonneg_right key hdx.le
    _ = h + (s.length / s.n) / 2 := by field_simp

end Verif.Grid
