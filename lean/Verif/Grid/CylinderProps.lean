import Verif.Grid.Props
import Verif.Grid.CylinderLemmas
import Mathlib.Analysis.Real.Pi.Bounds

/-! # Reserved memory and generated cylinders (properties C115, C116, C117) -/

namespace Verif.Grid

open Verif Verif.Mech Verif.Neigh

/-! ## C115: the memory reserved is enough -/

theorem reserved_enough {G : Generator} {procs : Nat} {ds : List Data} (hd : G.data procs = .ok ds)
    (hb : ∀ c : Cell, c.i < G.nx → c.j < G.ny → c.k < G.nz → (G.neighbors c).length ≤ G.bound c) :
    ∀ d ∈ ds, d.neighborhood.length ≤ d.reserved := by
  obtain ⟨_, _, _, hg, hH⟩ := data_spec hd
  intro d hdm
  have hh := hH d hdm
  rw [hh.neighborhood, hh.reserved, encode_length_sum, List.length_map, List.map_map]
  refine Nat.add_le_add_left ?_ _
  refine List.sum_le_sum fun g hgd => ?_
  have hgt : g < G.nx * G.ny * G.nz := by
    have : g ∈ List.range G.total := by
      rw [← hg, List.mem_flatten]
      exact ⟨d.gids, List.mem_map_of_mem hdm, hgd⟩
    exact List.mem_range.1 this
  obtain ⟨a1, a2, a3⟩ := cellAt_lt hgt
  exact hb _ a1 a2 a3

/-- C115, boxes.  On every processor the neighborhoods found fit in the memory reserved for them before
they are found, and the points fit in the arrays, which are made for the last processor. -/
theorem C115_box {h : ℝ} {xs ys zs : Spec} {norm : Norm} {G : Generator} {procs : Nat} {ds : List Data}
    (hG : box h xs ys zs norm = .ok G) (hd : G.data procs = .ok ds) :
    ∀ d ∈ ds, d.neighborhood.length ≤ d.reserved ∧
      ∃ counts, cellsPerProc G.total procs = .ok counts ∧ d.gids.length ≤ reservedCells counts := by
  intro d hdm
  refine ⟨?_, ?_⟩
  · refine reserved_enough hd ?_ d hdm
    obtain ⟨hx, hy, hz, e1, e2, e3, eG⟩ := box_eq hG
    obtain ⟨r1, n1⟩ := window_reach e1
    obtain ⟨r2, n2⟩ := window_reach e2
    obtain ⟨r3, n3⟩ := window_reach e3
    have l1 := reach_le r1
    have l2 := reach_le r2
    have l3 := reach_le r3
    subst eG
    intro c c1 c2 c3
    simp only at c1 c2 c3 ⊢
    rw [← cells_length, ← cells_length, ← cells_length]
    exact neighborsIn_length (self_mem_cells (by omega) (by omega)) (self_mem_cells (by omega) (by omega))
      (self_mem_cells (by omega) (by omega))
  · obtain ⟨counts, hc, hl, _, _⟩ := data_spec hd
    refine ⟨counts, hc, (cellsPerProc_sum hc).2.2 _ ?_⟩
    rw [← hl]
    exact List.mem_map_of_mem hdm

/-- C115, cylinders. -/
theorem C115_cylinder {h : ℝ} {R : Ring} {norm : Norm} {G : Generator} {procs : Nat} {ds : List Data}
    (hG : cylinder h R norm = .ok G) (hd : G.data procs = .ok ds) :
    ∀ d ∈ ds, d.neighborhood.length ≤ d.reserved ∧
      ∃ counts, cellsPerProc G.total procs = .ok counts ∧ d.gids.length ≤ reservedCells counts := by
  intro d hdm
  refine ⟨?_, ?_⟩
  · refine reserved_enough hd ?_ d hdm
    obtain ⟨rays, zs, hz, reach, hr, h1, h2, h3, h4, h5, eG⟩ := cylinder_eq hG
    obtain ⟨r1, n1⟩ := window_reach h5
    obtain ⟨r3, n3⟩ := window_reach h3
    have l1 := reach_le r1
    have l2 : reach ≤ rays := reach_le h4
    have l3 := reach_le r3
    have e1 : R.raySpec.n = R.rings := rfl
    subst eG
    intro c c1 c2 c3
    simp only at c1 c2 c3 ⊢
    rw [← cells_length, ← cells_length, ← ringCells_length l2 c2]
    exact neighborsIn_length (self_mem_cells (by omega) (by omega)) (self_mem_ringCells l2 c2)
      (self_mem_cells (by omega) (by omega))
  · obtain ⟨counts, hc, hl, _, _⟩ := data_spec hd
    refine ⟨counts, hc, (cellsPerProc_sum hc).2.2 _ ?_⟩
    rw [← hl]
    exact List.mem_map_of_mem hdm

/-- C115.  The loops over neighbors read the arrays of coordinates within their bounds. -/
theorem C115_reads {s : Spec} {h : ℝ} {w : Window} (hw : s.window h = .ok w) {i : Nat} (hi : i < s.n) :
    ∀ ii ∈ w.cells i, ii < s.centers.length := by
  obtain ⟨hr, hn⟩ := window_reach hw
  have hl := reach_le hr
  intro ii hii
  rw [Spec.centers, centersLoop_length, ← hn]
  exact ((mem_cells (by omega) (by omega)).1 hii).1

/-- C115.  The same around a cylinder. -/
theorem C115_ring_reads {rays reach : Nat} {h r : ℝ} (hr : (ringSpec rays).reach h r = .ok reach)
    {j : Nat} (hj : j < rays) : ∀ jj ∈ ringCells reach rays j, jj < (ringSpec rays).centers.length := by
  intro jj hjj
  rw [Spec.centers, centersLoop_length]
  exact ringCells_lt (reach_le hr) hj hjj

example : ∃ G ds, box (3 / 2) exX exY exY (normOf none) = .ok G ∧ G.data 5 = .ok ds ∧
    ∀ d ∈ ds, d.neighborhood.length ≤ d.reserved := by
  obtain ⟨G, ds, hG, hd⟩ := C113_defined (h := 3 / 2) (xs := exX) (ys := exY) (zs := exY)
    (normOf none) (procs := 5) (by norm_num) (by norm_num [exX]) (by norm_num [exY])
    (by norm_num [exY]) (by norm_num [exX]) (by norm_num [exY]) (by norm_num [exY]) (by norm_num)
  exact ⟨G, ds, hG, hd, fun d hdm => (C115_box hG hd d hdm).1⟩

/-! ## C116: the cells of a cylinder -/

theorem cylinder_mesh {h : ℝ} {R : Ring} {norm : Norm} {G : Generator} {procs : Nat} {ds : List Data}
    (hG : cylinder h R norm = .ok G) (hd : G.data procs = .ok ds) (ho : R.inner ≤ R.outer) :
    CylinderMesh R G.ny G.nz ds (fun g => G.point (cellAt G.nx G.ny g))
      (fun g => G.volume (cellAt G.nx G.ny g)) (fun g => G.neighbors (cellAt G.nx G.ny g)) := by
  have hD := data_describes hd
  obtain ⟨rays, zs, hz, reach, hr, h1, h2, h3, h4, h5, eG⟩ := cylinder_eq hG
  obtain ⟨z1, z2, z3⟩ := axis_pos h2
  have habs : R.raySpec.length = R.outer - R.inner := abs_of_nonneg (by linarith)
  subst eG
  refine ⟨hD, ?_, ?_⟩
  · intro i j k hi hj hk
    show cylinderPoint R.raySpec (ringSpec rays) zs (cellAt R.rings rays (i + R.rings * (j + rays * k))) = _
    simp only at hj hk
    rw [cellAt_of k hi hj, cylinderPoint]
    simp only
    rw [centers_getD (s := R.raySpec) hi, centers_getD (s := ringSpec rays) hj, centers_getD hk, habs,
      z2, z3]
    rfl
  · intro i j k hi hj hk
    simp only at hj hk ⊢
    rw [cellAt_of k hi hj]
    simp only
    rw [centers_getD (s := R.raySpec) hi, Spec.cellSize, Spec.cellSize, Spec.cellSize, habs, z3]
    rfl

/-- C116.  Whatever the number of processors, they get data that together describe every cell of a hollow
cylinder once, in the order of the ids.  The axis of the cylinder is the z axis. -/
theorem C116_cells_partial {h : ℝ} {R : Ring} {norm : Norm} {G : Generator} {procs : Nat}
    {ds : List Data} (hG : cylinder h R norm = .ok G) (hd : G.data procs = .ok ds)
    (ho : R.inner ≤ R.outer) :
    ds.length = procs ∧ ∃ rays layers X V N, R.rays = .ok rays ∧
      R.axisSpec = .ok ⟨layers, R.zStart, R.length⟩ ∧ CylinderMesh R rays layers ds X V N := by
  refine ⟨?_, ?_⟩
  · obtain ⟨counts, hc, hl, _, _⟩ := data_spec hd
    rw [← (cellsPerProc_sum hc).2.1, ← hl, List.length_map]
  · have hM := cylinder_mesh hG hd ho
    obtain ⟨rays, zs, hz, reach, hr, h1, h2, h3, h4, h5, eG⟩ := cylinder_eq hG
    obtain ⟨_, z2, z3⟩ := axis_pos h2
    have e1 : G.ny = rays := by rw [eG]
    have e2 : G.nz = zs.n := by rw [eG]
    refine ⟨G.ny, G.nz, _, _, _, by rw [e1]; exact h1, ?_, hM⟩
    rw [h2, e2, ← z2, ← z3]

/-- C116.  The volumes of all the points add up to the volume of the cylinder. -/
theorem C116_volume {h : ℝ} {R : Ring} {norm : Norm} {G : Generator} {procs : Nat} {ds : List Data}
    (hG : cylinder h R norm = .ok G) (hd : G.data procs = .ok ds) (ho : R.inner ≤ R.outer) :
    totalVolume ds = Real.pi * (R.outer ^ 2 - R.inner ^ 2) * R.length := by
  have hM := cylinder_mesh hG hd ho
  obtain ⟨rays, zs, hz, reach, hr, h1, h2, h3, h4, h5, eG⟩ := cylinder_eq hG
  obtain ⟨hrays, hrings⟩ := rays_pos h1
  obtain ⟨hzs, _, _⟩ := axis_pos h2
  have e0 : G.nx = R.rings := by rw [eG]
  have e1 : G.ny = rays := by rw [eG]
  have e2 : G.nz = zs.n := by rw [eG]
  have hny : (G.ny : ℝ) ≠ 0 := by rw [e1]; exact_mod_cast hrays.ne'
  have hnz : (G.nz : ℝ) ≠ 0 := by rw [e2]; exact_mod_cast hzs.ne'
  rw [totalVolume, flatten_volume hM.describes, e0, sum_cells R.rings G.ny G.nz G.volume]
  have hv : ∀ i j k, i < R.rings → j < G.ny → k < G.nz → G.volume ⟨i, j, k⟩ =
      mid R.inner (R.outer - R.inner) R.rings i * ((R.outer - R.inner) / R.rings) *
        (2 * Real.pi / G.ny * (R.length / G.nz)) := by
    intro i j k hi hj hk
    have := hM.volume i j k hi hj hk
    rw [e0] at this
    rw [cellAt_of k hi hj] at this
    rw [this]
    ring
  have hinner : ∀ k ∈ Finset.range G.nz, ∀ j ∈ Finset.range G.ny,
      ∑ i ∈ Finset.range R.rings, G.volume ⟨i, j, k⟩ =
        (R.outer ^ 2 - R.inner ^ 2) / 2 * (2 * Real.pi / G.ny * (R.length / G.nz)) := by
    intro k hk j hj
    rw [Finset.mem_range] at hk hj
    rw [← sum_mid R.inner R.outer R.rings (by omega), Finset.sum_mul]
    exact Finset.sum_congr rfl fun i hi => hv i j k (Finset.mem_range.1 hi) hj hk
  rw [Finset.sum_congr rfl fun k hk => Finset.sum_congr rfl fun j hj => hinner k hk j hj]
  rw [Finset.sum_const, Finset.sum_const, Finset.card_range, Finset.card_range, nsmul_eq_mul,
    nsmul_eq_mul]
  field_simp

/-- C116.  All points are between the inner and the outer surface of a cylinder about the z axis. -/
theorem C116_inside_partial {h : ℝ} {R : Ring} {norm : Norm} {G : Generator} {procs : Nat}
    {ds : List Data} (hG : cylinder h R norm = .ok G) (hd : G.data procs = .ok ds) (h0 : 0 ≤ R.inner)
    (ho : R.inner < R.outer) (hL : 0 < R.length) :
    ∀ d ∈ ds, ∀ p ∈ d.x, R.inner < Real.sqrt (p 0 ^ 2 + p 1 ^ 2) ∧
      Real.sqrt (p 0 ^ 2 + p 1 ^ 2) < R.outer ∧ R.zStart < p 2 ∧ p 2 < R.zStart + R.length := by
  have hM := cylinder_mesh hG hd ho.le
  have hnx : G.nx = R.rings := by
    obtain ⟨_, _, _, _, _, _, _, _, _, _, eG⟩ := cylinder_eq hG
    rw [eG]
  intro d hdm p hp
  rw [hM.describes.x d hdm, List.mem_map] at hp
  obtain ⟨g, hg, rfl⟩ := hp
  have hgt : g < R.rings * G.ny * G.nz := by
    rw [← List.mem_range, ← hM.describes.gids, List.mem_flatten]
    exact ⟨d.gids, List.mem_map_of_mem hdm, hg⟩
  obtain ⟨a1, a2, a3⟩ := cellAt_lt hgt
  have hpos := hM.position _ _ _ a1 a2 a3
  have hgid : (cellAt R.rings G.ny g).i + R.rings * ((cellAt R.rings G.ny g).j +
      G.ny * (cellAt R.rings G.ny g).k) = g := by
    have := gid_cellAt R.rings G.ny g
    rw [Cell.gid] at this
    calc _ = (cellAt R.rings G.ny g).i + (cellAt R.rings G.ny g).j * R.rings +
          (cellAt R.rings G.ny g).k * R.rings * G.ny := by ring
      _ = g := this
  rw [hgid] at hpos
  rw [hpos]
  obtain ⟨m1, m2⟩ := mid_inside (x0 := R.inner) (L := R.outer - R.inner) (by linarith) a1
  obtain ⟨m3, m4⟩ := mid_inside (x0 := R.zStart) hL a3
  have hr : ∀ r θ : ℝ, 0 ≤ r → Real.sqrt ((r * Real.cos θ) ^ 2 + (r * Real.sin θ) ^ 2) = r := by
    intro r θ hr
    rw [show (r * Real.cos θ) ^ 2 + (r * Real.sin θ) ^ 2 =
      r ^ 2 * (Real.cos θ ^ 2 + Real.sin θ ^ 2) by ring, Real.cos_sq_add_sin_sq, mul_one,
      Real.sqrt_sq hr]
  simp only [Matrix.cons_val_zero, Matrix.cons_val_one, Matrix.cons_val]
  rw [hr _ _ (by linarith)]
  exact ⟨m1, by linarith, m3, m4⟩

/-- C116 is not the cylinder asked for: "Ring Center x" and "Ring Center y" have no effect.  If the center
is to the right by twice the outer radius, all points are outside the cylinder about that center. -/
theorem C116_center_broken {h : ℝ} {R : Ring} {norm : Norm} {G : Generator} {procs : Nat}
    {ds : List Data} (hG : cylinder h R norm = .ok G) (hd : G.data procs = .ok ds) (h0 : 0 ≤ R.inner)
    (ho : R.inner < R.outer) (hL : 0 < R.length) (hc : 2 * R.outer ≤ R.center.1) :
    ∀ d ∈ ds, ∀ p ∈ d.x,
      R.outer < Real.sqrt ((p 0 - R.center.1) ^ 2 + (p 1 - R.center.2) ^ 2) := by
  intro d hdm p hp
  obtain ⟨_, h2, _, _⟩ := C116_inside_partial hG hd h0 ho hL d hdm p hp
  have h3 : p 0 < R.outer := by
    refine lt_of_le_of_lt (le_trans (le_abs_self _) ?_) h2
    rw [← Real.sqrt_sq_eq_abs]
    exact Real.sqrt_le_sqrt (by nlinarith [sq_nonneg (p 1)])
  rw [Real.lt_sqrt (by linarith)]
  nlinarith [sq_nonneg (p 1 - R.center.2)]

/-- C116.  The mesh is that of the same cylinder with any other center. -/
theorem C116_center_ignored (h : ℝ) (R : Ring) (norm : Norm) (c : ℝ × ℝ) :
    cylinder h { R with center := c } norm = cylinder h R norm := rfl

/-- C116.  Cylinders with an inner radius below the outer one, and of positive length, can be made. -/
theorem C116_defined {h : ℝ} {R : Ring} (norm : Norm) {procs : Nat} (hh : 0 ≤ h) (h0 : 0 ≤ R.inner)
    (ho : R.inner < R.outer) (hr : 0 < R.rings) (hL : 0 < R.length) (hp : 0 < procs) :
    ∃ G ds, cylinder h R norm = .ok G ∧ G.data procs = .ok ds := by
  have hn : (0 : ℝ) < R.rings := by exact_mod_cast hr
  have hth : 0 < R.dTheta := by
    rw [Ring.dTheta]
    exact div_pos (div_pos (by linarith) hn) (by linarith)
  have hq : 0 < 2 * Real.pi / R.dTheta := div_pos (by positivity) hth
  have e1 : ∃ rays, R.rays = .ok rays := by
    refine ⟨_, by rw [Ring.rays, if_neg]; rintro (h | h | h | h) <;> first | omega | linarith⟩
  obtain ⟨rays, e1⟩ := e1
  have hrp := (rays_pos e1).1
  have hcs : 0 < R.raySpec.cellSize := by
    rw [Spec.cellSize]
    exact div_pos (by show 0 < |R.outer - R.inner|; exact abs_pos.2 (by linarith)) hn
  have hq2 : 0 < R.length / R.raySpec.cellSize := div_pos hL hcs
  have e2 : ∃ zs, R.axisSpec = .ok zs := by
    refine ⟨_, by rw [Ring.axisSpec, if_neg]; rintro (h | h) <;> linarith⟩
  obtain ⟨zs, e2⟩ := e2
  obtain ⟨z1, _, z3⟩ := axis_pos e2
  have hw : ∀ s : Spec, 0 < s.length → 0 < s.n → ∀ r : ℝ, 0 < r → ∃ n, s.reach h r = .ok n := by
    intro s hs hn' r hr'
    have hn'' : (0 : ℝ) < s.n := by exact_mod_cast hn'
    have hc : 0 < s.cellSize * r := by rw [Spec.cellSize]; exact mul_pos (div_pos hs hn'') hr'
    exact reach_ok hc.ne' (div_nonneg hh hc.le)
  obtain ⟨a, ea⟩ := hw zs (by rw [z3]; exact hL) z1 1 one_pos
  obtain ⟨b, eb⟩ := hw (ringSpec rays) (by show 0 < 2 * Real.pi; positivity) hrp
    ((R.inner + R.outer) / 2) (by linarith)
  obtain ⟨c, ec⟩ := hw R.raySpec (by show 0 < |R.outer - R.inner|; exact abs_pos.2 (by linarith)) hr
    1 one_pos
  obtain ⟨d, ed⟩ := hw (ringSpec rays) (by show 0 < 2 * Real.pi; positivity) hrp 1 one_pos
  have eG : ∃ G, cylinder h R norm = .ok G := by
    unfold cylinder Spec.window
    rw [e1, Outcome.ok_bind, e2, Outcome.ok_bind, ea, Outcome.ok_bind, Outcome.ok_bind, eb,
      Outcome.ok_bind, ec, Outcome.ok_bind, Outcome.ok_bind, ed, Outcome.ok_bind, Outcome.ok_bind]
    exact ⟨_, rfl⟩
  obtain ⟨G, eG⟩ := eG
  have : ∃ ds, G.data procs = .ok ds := by
    rw [Generator.data, cellsPerProc_ok (by omega)]
    exact ⟨_, rfl⟩
  obtain ⟨ds, ed'⟩ := this
  exact ⟨G, ds, eG, ed'⟩

/-- A pipe with its center away from the axis. -/
noncomputable def pipe : Ring :=
  { center := (10, 0), inner := 1, outer := 2, rings := 3, zStart := 0, length := 4 }

example : ∃ G ds, cylinder 1 pipe (normOf (some "Spherical")) = .ok G ∧ G.data 4 = .ok ds ∧
    totalVolume ds = Real.pi * (2 ^ 2 - 1 ^ 2) * 4 ∧
    (∀ d ∈ ds, ∀ p ∈ d.x, Real.sqrt (p 0 ^ 2 + p 1 ^ 2) < 2) ∧
    ∀ d ∈ ds, ∀ p ∈ d.x, 2 < Real.sqrt ((p 0 - 10) ^ 2 + (p 1 - 0) ^ 2) := by
  obtain ⟨G, ds, hG, hd⟩ := C116_defined (h := 1) (R := pipe) (normOf (some "Spherical")) (procs := 4)
    (by norm_num) (by norm_num [pipe]) (by norm_num [pipe]) (by norm_num [pipe]) (by norm_num [pipe])
    (by norm_num)
  exact ⟨G, ds, hG, hd, C116_volume hG hd (by norm_num [pipe]), fun d hdm p hp =>
    (C116_inside_partial hG hd (by norm_num [pipe]) (by norm_num [pipe]) (by norm_num [pipe]) d hdm p
      hp).2.1, C116_center_broken hG hd (by norm_num [pipe]) (by norm_num [pipe]) (by norm_num [pipe])
      (by norm_num [pipe])⟩

/-! ## C117: the neighbors in a cylinder -/

open Classical in
theorem cylinder_count {h : ℝ} {R : Ring} {norm : Norm} {G : Generator}
    (e : cylinder h R norm = .ok G) :
    ∃ rx reach rz, R.raySpec.reach h 1 = .ok rx ∧
      (ringSpec G.ny).reach h ((R.inner + R.outer) / 2) = .ok reach ∧ reach ≤ G.ny ∧
      (∃ zs : Spec, R.axisSpec = .ok zs ∧ zs.reach h 1 = .ok rz ∧ zs.n = G.nz) ∧
      ∀ g g', g < R.rings * G.ny * G.nz → g' < R.rings * G.ny * G.nz →
        (G.neighbors (cellAt G.nx G.ny g)).count g' =
          if g' ≠ g ∧ norm (G.point (cellAt G.nx G.ny g')) (G.point (cellAt G.nx G.ny g)) h then
            (if (cellAt G.nx G.ny g').i ≤ (cellAt G.nx G.ny g).i + rx ∧
              (cellAt G.nx G.ny g).i ≤ (cellAt G.nx G.ny g').i + rx then 1 else 0) *
            (ringCells reach G.ny (cellAt G.nx G.ny g).j).count (cellAt G.nx G.ny g').j *
            (if (cellAt G.nx G.ny g').k ≤ (cellAt G.nx G.ny g).k + rz ∧
              (cellAt G.nx G.ny g).k ≤ (cellAt G.nx G.ny g').k + rz then 1 else 0)
          else 0 := by
  obtain ⟨rays, zs, hz, reach, hr, h1, h2, h3, h4, h5, eG⟩ := cylinder_eq e
  obtain ⟨r1, n1⟩ := window_reach h5
  obtain ⟨r3, n3⟩ := window_reach h3
  have l1 := reach_le r1
  have l2 : reach ≤ rays := reach_le h4
  have l3 := reach_le r3
  have n0 : R.raySpec.n = R.rings := rfl
  subst eG
  refine ⟨hr.reach, reach, hz.reach, r1, h4, l2, ⟨zs, h2, r3, rfl⟩, ?_⟩
  intro g g' hg hg'
  simp only at hg hg' ⊢
  obtain ⟨a1, a2, a3⟩ := cellAt_lt hg
  obtain ⟨b1, b2, b3⟩ := cellAt_lt hg'
  have hne : (cellAt R.rings rays g' ≠ cellAt R.rings rays g) ↔ g' ≠ g := by
    constructor
    · intro h1 h2; exact h1 (by rw [h2])
    · intro h1 h2
      apply h1
      have := congrArg (Cell.gid R.rings rays) h2
      rwa [gid_cellAt, gid_cellAt] at this
  have hcount := neighborsIn_count (nx := R.rings) (ny := rays)
    (point := cylinderPoint R.raySpec (ringSpec rays) zs)
    (norm := norm) (h := h) (is := hr.cells (cellAt R.rings rays g).i)
    (js := ringCells reach rays (cellAt R.rings rays g).j) (ks := hz.cells (cellAt R.rings rays g).k)
    (c := cellAt R.rings rays g) (d := cellAt R.rings rays g')
    (fun ii hii => by
      have := ((mem_cells (by omega) (by omega)).1 hii).1
      omega)
    (fun jj hjj => ringCells_lt l2 a2 hjj) b1 b2
  rw [gid_cellAt] at hcount
  rw [hcount, cells_count (by omega) (by omega), cells_count (by omega) (by omega), n1, n3, n0]
  simp only [b1, b3, true_and]
  refine if_congr ?_ rfl rfl
  rw [hne]

/-- Everything listed is the id of a cell. -/
theorem cylinder_mem {h : ℝ} {R : Ring} {norm : Norm} {G : Generator} (e : cylinder h R norm = .ok G)
    {g g' : Nat} (hg : g < R.rings * G.ny * G.nz) (hm : g' ∈ G.neighbors (cellAt G.nx G.ny g)) :
    g' < R.rings * G.ny * G.nz := by
  obtain ⟨rays, zs, hz, reach, hr, h1, h2, h3, h4, h5, eG⟩ := cylinder_eq e
  obtain ⟨r1, n1⟩ := window_reach h5
  obtain ⟨r3, n3⟩ := window_reach h3
  have l1 := reach_le r1
  have l2 : reach ≤ rays := reach_le h4
  have l3 := reach_le r3
  have n0 : R.raySpec.n = R.rings := rfl
  subst eG
  simp only at hm hg ⊢
  obtain ⟨a1, a2, a3⟩ := cellAt_lt hg
  obtain ⟨d, d1, d2, d3, rfl⟩ := mem_neighborsIn hm
  have b1 := ((mem_cells (by omega) (by omega)).1 d1).1
  have b2 := ringCells_lt l2 a2 d2
  have b3 := ((mem_cells (by omega) (by omega)).1 d3).1
  rw [n1, n0] at b1
  rw [n3] at b3
  rw [Cell.gid]
  have h1 : d.j * R.rings + R.rings ≤ rays * R.rings := by
    calc d.j * R.rings + R.rings = (d.j + 1) * R.rings := by ring
      _ ≤ rays * R.rings := Nat.mul_le_mul_right _ (by omega)
  have h2 : d.k * (R.rings * rays) + R.rings * rays ≤ zs.n * (R.rings * rays) := by
    calc d.k * (R.rings * rays) + R.rings * rays = (d.k + 1) * (R.rings * rays) := by ring
      _ ≤ zs.n * (R.rings * rays) := Nat.mul_le_mul_right _ (by omega)
  have h3 : d.k * R.rings * rays = d.k * (R.rings * rays) := by ring
  have h4 : R.rings * rays * zs.n = zs.n * (R.rings * rays) := by ring
  have h5 : rays * R.rings = R.rings * rays := by ring
  omega

/-- C117 (`_partial`), with "NeighborhoodType" "Spherical": what is listed is nearer than the horizon,
bonds come in pairs, and if the reach around the cylinder is less than half of it nothing is listed
twice.  Missing: that everything nearer than the horizon is listed (`C117_missed`), and that nothing is
listed twice when the reach is larger (`C117_twice`). -/
theorem C117_neighbors_partial {h : ℝ} {R : Ring} {G : Generator} {procs : Nat} {ds : List Data}
    (hG : cylinder h R (normOf (some "Spherical")) = .ok G) (hd : G.data procs = .ok ds) (hh : 0 ≤ h)
    (ho : R.inner ≤ R.outer) :
    ∃ rays layers reach X V N, CylinderMesh R rays layers ds X V N ∧ R.rays = .ok rays ∧
      (ringSpec rays).reach h ((R.inner + R.outer) / 2) = .ok reach ∧
      ∀ g, g < R.rings * rays * layers →
        (∀ g' ∈ N g, g' < R.rings * rays * layers ∧ g' ≠ g ∧ distance (X g) (X g') < h) ∧
        (∀ g', g' < R.rings * rays * layers → (N g).count g' = (N g').count g) ∧
        (2 * reach + 1 ≤ rays → (N g).Nodup) := by
  classical
  have hM := cylinder_mesh hG hd ho
  obtain ⟨rx, reach, rz, r1, r2, l2, ⟨zs, e2, r3, _⟩, hc⟩ := cylinder_count hG
  have hrays : R.rays = .ok G.ny := by
    obtain ⟨rays, zs, hz, reach, hr, h1, h2, h3, h4, h5, eG⟩ := cylinder_eq hG
    rw [h1, eG]
  have hnx : G.nx = R.rings := by
    obtain ⟨_, _, _, _, _, _, _, _, _, _, eG⟩ := cylinder_eq hG
    rw [eG]
  have hn : normOf (some "Spherical") = spherical := by rw [normOf, if_pos rfl]
  rw [hn] at hc
  refine ⟨G.ny, G.nz, reach, _, _, _, hM, hrays, r2, ?_⟩
  intro g hg
  refine ⟨?_, ?_, ?_⟩
  · intro g' hm
    have hg' := cylinder_mem hG hg hm
    have hcnt := List.count_pos_iff.2 hm
    rw [hc g g' hg hg'] at hcnt
    split at hcnt
    · rename_i hP
      exact ⟨hg', hP.1, (spherical_iff hh).1 hP.2⟩
    · exact absurd hcnt (by omega)
  · intro g' hg'
    obtain ⟨_, a2, _⟩ := cellAt_lt hg
    obtain ⟨_, b2, _⟩ := cellAt_lt hg'
    rw [hc g g' hg hg', hc g' g hg' hg, hnx, ringCells_symm l2 a2 b2]
    have hs : ∀ p q : V3, spherical p q h ↔ spherical q p h := by
      intro p q
      rw [spherical, spherical]
      constructor <;> intro e <;> linarith
    have e1 : ∀ a b r : Nat, (if b ≤ a + r ∧ a ≤ b + r then 1 else 0 : Nat) =
        if a ≤ b + r ∧ b ≤ a + r then 1 else 0 := fun a b r => if_congr And.comm rfl rfl
    rw [e1 (cellAt R.rings G.ny g).i, e1 (cellAt R.rings G.ny g).k]
    exact if_congr (and_congr ⟨Ne.symm, Ne.symm⟩ (hs _ _)) rfl rfl
  · intro hsmall
    rw [List.nodup_iff_count_le_one]
    intro g'
    by_cases hg' : g' < R.rings * G.ny * G.nz
    · obtain ⟨_, a2, _⟩ := cellAt_lt hg
      obtain ⟨_, b2, _⟩ := cellAt_lt hg'
      have ho := ringCells_once l2 a2 b2 hsmall
      rw [hc g g' hg hg', hnx]
      have m1 : ∀ P Q : Prop, ∀ [Decidable P] [Decidable Q], ∀ n : Nat, n ≤ 1 →
          (if P then 1 else 0) * n * (if Q then 1 else 0) ≤ 1 := by
        intro P Q _ _ n hn
        by_cases hP : P <;> by_cases hQ : Q <;> simp [hP, hQ, hn]
      split
      · exact m1 _ _ _ ho
      · omega
    · rw [List.count_eq_zero.2 (fun hm => hg' (cylinder_mem hG hg hm))]; omega

/-- One ring of four cells: a full cylinder of radius 2. -/
noncomputable def fourCells : Ring :=
  { center := (0, 0), inner := 0, outer := 2, rings := 1, zStart := 0, length := 1 }

theorem fourCells_rays : fourCells.rays = .ok 4 := by
  have e : fourCells.dTheta = 2 := by norm_num [Ring.dTheta, fourCells]
  have hp := Real.pi_gt_three
  have hp' := Real.pi_lt_four
  rw [Ring.rays, e, if_neg]
  · have : truncate (2 * Real.pi / 2) = 3 := by
      rw [truncate, Nat.floor_eq_iff (by positivity)]
      constructor
      · push_cast; linarith
      · push_cast; linarith
    rw [this]
  · rintro (h | h | h | h)
    · norm_num [fourCells] at h
    · norm_num [fourCells] at h
    · norm_num at h
    · have : 0 < 2 * Real.pi / 2 := by positivity
      linarith

theorem fourCells_axis : fourCells.axisSpec = .ok ⟨1, 0, 1⟩ := by
  have e : fourCells.raySpec.cellSize = 2 := by norm_num [Spec.cellSize, Ring.raySpec, fourCells]
  rw [Ring.axisSpec, e, if_neg]
  · have : truncate (fourCells.length / 2) = 0 := by
      rw [truncate, Nat.floor_eq_zero]; norm_num [fourCells]
    rw [this]
    rfl
  · rintro (h | h) <;> norm_num [fourCells] at h

theorem fourCells_distance {X : Nat → V3} {V : Nat → ℝ} {N : Nat → List Nat} {ds : List Data}
    (hM : CylinderMesh fourCells 4 1 ds X V N) : distance (X 0) (X 2) = 2 := by
  have h0 := hM.position 0 0 0 (by norm_num [fourCells]) (by norm_num) (by norm_num)
  have h2 := hM.position 0 2 0 (by norm_num [fourCells]) (by norm_num) (by norm_num)
  have e0 : 0 + fourCells.rings * (0 + 4 * 0) = 0 := by simp
  have e2 : 0 + fourCells.rings * (2 + 4 * 0) = 2 := by simp [fourCells]
  rw [e0] at h0
  rw [e2] at h2
  have hang : mid 0 (2 * Real.pi) 4 2 = mid 0 (2 * Real.pi) 4 0 + Real.pi := by
    rw [mid, mid]
    push_cast
    ring
  have hr : mid fourCells.inner (fourCells.outer - fourCells.inner) fourCells.rings 0 = 1 := by
    norm_num [mid, fourCells]
  rw [h0, h2, hang, hr, distance, Real.cos_add_pi, Real.sin_add_pi]
  simp only [Matrix.cons_val_zero, Matrix.cons_val_one, Matrix.cons_val]
  have hcs := Real.cos_sq_add_sin_sq (mid 0 (2 * Real.pi) 4 0)
  rw [show (1 * Real.cos (mid 0 (2 * Real.pi) 4 0) - 1 * -Real.cos (mid 0 (2 * Real.pi) 4 0)) ^ 2 +
      (1 * Real.sin (mid 0 (2 * Real.pi) 4 0) - 1 * -Real.sin (mid 0 (2 * Real.pi) 4 0)) ^ 2 +
      (mid fourCells.zStart fourCells.length 1 0 - mid fourCells.zStart fourCells.length 1 0) ^ 2 =
      2 ^ 2 by linear_combination 4 * hcs]
  exact Real.sqrt_sq (by norm_num)

theorem fourCells_generator {h : ℝ} {norm : Norm} {G : Generator}
    (hG : cylinder h fourCells norm = .ok G) : G.nx = 1 ∧ G.ny = 4 ∧ G.nz = 1 := by
  obtain ⟨rays, zs, hz, reach, hr, h1, h2, h3, h4, h5, eG⟩ := cylinder_eq hG
  rw [fourCells_rays] at h1
  injection h1 with h1
  rw [fourCells_axis] at h2
  injection h2 with h2
  subst h1 h2
  rw [eG]
  exact ⟨rfl, rfl, rfl⟩

/-- C117 fails: in a full cylinder of radius 2 made of four cells, with a horizon of 2.1, opposite points
are at a distance of 2 but not neighbors. -/
theorem C117_missed :
    ∃ G ds, cylinder (21 / 10) fourCells (normOf (some "Spherical")) = .ok G ∧ G.data 1 = .ok ds ∧
      ∃ X V N, CylinderMesh fourCells 4 1 ds X V N ∧ distance (X 0) (X 2) = 2 ∧ 2 ∉ N 0 := by
  classical
  obtain ⟨G, ds, hG, hd⟩ := C116_defined (h := 21 / 10) (R := fourCells) (normOf (some "Spherical"))
    (procs := 1) (by norm_num) (by norm_num [fourCells]) (by norm_num [fourCells])
    (by norm_num [fourCells]) (by norm_num [fourCells]) (by norm_num)
  have hM := cylinder_mesh hG hd (by norm_num [fourCells])
  obtain ⟨g1, g2, g3⟩ := fourCells_generator hG
  obtain ⟨rx, reach, rz, r1, r2, l2, _, hc⟩ := cylinder_count hG
  rw [g2, g3] at hM
  refine ⟨G, ds, hG, hd, _, _, _, hM, fourCells_distance hM, ?_⟩
  have hp1 := Real.pi_gt_d2
  have hp2 := Real.pi_lt_d2
  have hpos : (0 : ℝ) < Real.pi := Real.pi_pos
  have hq : (21 / 10 : ℝ) / ((ringSpec 4).cellSize * ((fourCells.inner + fourCells.outer) / 2)) =
      21 / 5 / Real.pi := by
    simp only [Spec.cellSize, ringSpec, fourCells]
    field_simp
    norm_num
  have hb1 : 1 ≤ 21 / 5 / Real.pi := by rw [le_div_iff₀ hpos]; linarith
  have hb2 : 21 / 5 / Real.pi < 3 / 2 := by rw [div_lt_iff₀ hpos]; linarith
  have ht : truncate (21 / 5 / Real.pi) = 1 := by
    rw [truncate, Nat.floor_eq_iff (by linarith)]
    constructor
    · push_cast; linarith
    · push_cast; linarith
  have hreach : reach = 1 := by
    rw [g2] at r2
    unfold Spec.reach at r2
    rw [hq, ht, if_neg (by simp [ringSpec]), if_neg, if_neg (by linarith), if_neg] at r2
    · injection r2 with r2
      rw [← r2]
      simp [ringSpec]
    · rw [abs_of_nonneg (by push_cast; linarith)]
      push_cast
      linarith
    · intro h0
      rw [h0, div_zero] at hq
      linarith
  subst hreach
  rw [← List.count_eq_zero]
  have h0 := hc 0 2 (by rw [g2, g3]; norm_num [fourCells]) (by rw [g2, g3]; norm_num [fourCells])
  rw [g2] at h0
  rw [h0, g1]
  have : (ringCells 1 4 (cellAt 1 4 0).j).count (cellAt 1 4 2).j = 0 := by decide
  rw [this]
  simp

/-- C117 fails: with a horizon of 2.4 opposite points are listed twice. -/
theorem C117_twice :
    ∃ G ds, cylinder (12 / 5) fourCells (normOf (some "Spherical")) = .ok G ∧ G.data 1 = .ok ds ∧
      ∃ X V N, CylinderMesh fourCells 4 1 ds X V N ∧ (N 0).count 2 = 2 := by
  classical
  obtain ⟨G, ds, hG, hd⟩ := C116_defined (h := 12 / 5) (R := fourCells) (normOf (some "Spherical"))
    (procs := 1) (by norm_num) (by norm_num [fourCells]) (by norm_num [fourCells])
    (by norm_num [fourCells]) (by norm_num [fourCells]) (by norm_num)
  have hM := cylinder_mesh hG hd (by norm_num [fourCells])
  obtain ⟨g1, g2, g3⟩ := fourCells_generator hG
  obtain ⟨rx, reach, rz, r1, r2, l2, _, hc⟩ := cylinder_count hG
  rw [g2, g3] at hM
  refine ⟨G, ds, hG, hd, _, _, _, hM, ?_⟩
  have hdist := fourCells_distance hM
  have hp1 := Real.pi_gt_d2
  have hp2 := Real.pi_lt_d2
  have hpos : (0 : ℝ) < Real.pi := Real.pi_pos
  have hq : (12 / 5 : ℝ) / ((ringSpec 4).cellSize * ((fourCells.inner + fourCells.outer) / 2)) =
      24 / 5 / Real.pi := by
    simp only [Spec.cellSize, ringSpec, fourCells]
    field_simp
    norm_num
  have hb1 : 3 / 2 ≤ 24 / 5 / Real.pi := by rw [le_div_iff₀ hpos]; linarith
  have hb2 : 24 / 5 / Real.pi < 2 := by rw [div_lt_iff₀ hpos]; linarith
  have ht : truncate (24 / 5 / Real.pi) = 1 := by
    rw [truncate, Nat.floor_eq_iff (by linarith)]
    constructor
    · push_cast; linarith
    · push_cast; linarith
  have hreach : reach = 2 := by
    rw [g2] at r2
    unfold Spec.reach at r2
    rw [hq, ht, if_neg (by simp [ringSpec]), if_neg, if_neg (by linarith), if_pos] at r2
    · injection r2 with r2
      rw [← r2]
      simp [ringSpec]
    · rw [abs_of_nonneg (by push_cast; linarith)]
      push_cast
      linarith
    · intro h0
      rw [h0, div_zero] at hq
      linarith
  subst hreach
  have h0 := hc 0 2 (by rw [g2, g3]; norm_num [fourCells]) (by rw [g2, g3]; norm_num [fourCells])
  have hn : normOf (some "Spherical") = spherical := by rw [normOf, if_pos rfl]
  rw [hn, if_pos ⟨by norm_num, (spherical_iff (by norm_num)).2 (by rw [g2, hdist]; norm_num)⟩,
    g1, g2] at h0
  have : (ringCells 2 4 (cellAt 1 4 0).j).count (cellAt 1 4 2).j = 2 := by decide
  rw [this] at h0
  rw [g1, h0]
  simp [cellAt]

end Verif.Grid
