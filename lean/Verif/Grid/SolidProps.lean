import Verif.Grid.SolidStatement
import Verif.Grid.SolidRuns
import Verif.Grid.Props
import Mathlib.Analysis.Real.Pi.Bounds

/-! # Solid cylinders (properties C236, C237) -/

namespace Verif.Grid

open Verif Verif.Mech

/-! ## C236: every cell once -/

theorem coreRadius_eq (S : SolidSpec) : S.coreRadius = innerRadius S := by
  rw [SolidSpec.coreRadius, innerRadius, div_div]

theorem generator_eq {S : SolidSpec} {G : SolidGenerator} (h : S.generator = .ok G) :
    S.rings ≠ 0 ∧ G.nx = S.rings ∧ G.ny = S.rays ∧ G.nz = S.axisSpec.n ∧
    (∀ k, G.point (.core k) = ![0, 0, S.axisSpec.centers.getD k 0]) ∧
    (∀ c, G.point (.ring c) = cylinderPoint S.raySpec (ringSpec S.rays) S.axisSpec c) ∧
    (∀ k, G.volume (.core k) = Real.pi * S.coreRadius * S.coreRadius * S.axisSpec.cellSize) ∧
    (∀ c, G.volume (.ring c) =
      S.raySpec.centers.getD c.i 0 * S.raySpec.cellSize * (ringSpec S.rays).cellSize * S.axisSpec.cellSize) := by
  rw [SolidSpec.generator] at h
  split_ifs at h with hc
  have e := Outcome.ok.inj h
  subst e
  exact ⟨fun e => hc (Or.inl e), rfl, rfl, rfl, fun _ => rfl, fun _ => rfl, fun _ => rfl, fun _ => rfl⟩

/-- C236.  If no processor but the last ends at a core, the processors get data that together describe every cell of the solid
cylinder once, in the order of the ids, with the middle of the cell and its volume.  Without the condition this is false. -/
theorem C236_cells_partial {S : SolidSpec} {G : SolidGenerator} {procs : Nat} {ds : List SolidData}
    (hG : S.generator = .ok G) (hd : G.data procs = .ok ds) (hc : ¬ CutAtCore S G.ny G.nz procs) :
    ∃ X V, SolidMesh S G.ny G.nz ds X V := by
  obtain ⟨h0, e1, e2, e3, p1, p2, v1, v2⟩ := generator_eq hG
  have hx : 0 < G.nx := by omega
  have hy : 0 < G.ny := by rw [e2, SolidSpec.rays]; omega
  obtain ⟨hp, eds⟩ := solid_data hd
  have hsum := share_sum (total := G.total) hp
  have htot : G.total = (S.rings * G.ny + 1) * G.nz := by rw [SolidGenerator.total, e1]
  obtain ⟨g1, g2⟩ := solid_good hx hy (G.total / procs) (G.total / procs + G.total % procs) (procs - 1) 0
    (by omega) (by
      intro m hm hmod
      rw [Nat.zero_add] at hmod
      rcases Nat.eq_zero_or_pos m with h | h
      · subst h
        rw [Nat.zero_mul, Nat.zero_mod] at hmod
        omega
      · exact hc ⟨m, h, by omega, by rw [← e1]; exact hmod⟩)
  rw [← eds, hsum] at g1
  rw [← eds] at g2
  have hny : G.ny = (ringSpec S.rays).n := e2
  refine ⟨fun g => G.point (placeAt G.nx G.ny g), fun g => G.volume (placeAt G.nx G.ny g), ?_, ?_, ?_, ?_, ?_, ?_, ?_⟩
  · rw [g1, ← htot, List.range_eq_range']
  · intro d hdm
    rw [(g2 d hdm).global, htot]
  · intro d hdm
    exact (g2 d hdm).points
  · intro d hdm
    exact (g2 d hdm).x
  · intro d hdm
    exact (g2 d hdm).volume
  · intro k hk
    rw [← e1, placeAt_core, p1, v1, coreRadius_eq, centers_getD (by omega), Spec.cellSize, e3]
    refine ⟨rfl, ?_⟩
    show Real.pi * innerRadius S * innerRadius S * (S.length / S.axisSpec.n) = _
    ring
  · intro i j k hi hj hk
    have hi' : i < G.nx := by omega
    rw [← e1, placeAt_ring k hi' hj, p2, v2, cylinderPoint]
    simp only
    rw [centers_getD (s := S.raySpec) hi, centers_getD (s := ringSpec S.rays) (by omega), centers_getD (by omega),
      Spec.cellSize, Spec.cellSize, Spec.cellSize, e1, e2, e3]
    show _ = ![mid (innerRadius S) (S.radius - innerRadius S) S.rings i * _, _, _] ∧ _
    rw [← coreRadius_eq]
    exact ⟨rfl, rfl⟩

/-- C236 is false in general: if a processor but the last ends at a core, the ids are not those of all cells in their order. -/
theorem C236_lost {S : SolidSpec} {G : SolidGenerator} {procs : Nat} {ds : List SolidData}
    (hG : S.generator = .ok G) (hd : G.data procs = .ok ds) (hc : CutAtCore S G.ny G.nz procs) :
    (ds.map SolidData.gids).flatten ≠ List.range ((S.rings * G.ny + 1) * G.nz) := by
  obtain ⟨h0, e1, e2, e3, _⟩ := generator_eq hG
  have hx : 0 < G.nx := by omega
  have hy : 0 < G.ny := by rw [e2, SolidSpec.rays]; omega
  obtain ⟨hp, eds⟩ := solid_data hd
  have hsum := share_sum (total := G.total) hp
  have htot : G.total = (S.rings * G.ny + 1) * G.nz := by rw [SolidGenerator.total, e1]
  obtain ⟨m, m1, m2, m3⟩ := hc
  rw [← htot] at m3 ⊢
  rw [← e1] at m3
  have hs : 0 < G.total / procs := by
    rcases Nat.eq_zero_or_pos (G.total / procs) with h | h
    · rw [h, Nat.mul_zero, Nat.zero_mod] at m3
      omega
    · exact h
  have := solid_bad hx hy (s := G.total / procs) (b := G.total / procs + G.total % procs) hs (by omega) (procs - 1) 0
    (by omega) (by rw [Nat.zero_mod]; omega) ⟨m, m1, by omega, by rw [Nat.zero_add]; exact m3⟩
  rw [← eds, hsum, ← List.range_eq_range'] at this
  exact this

/-- C236.  One processor gets all cells. -/
theorem C236_one_processor {S : SolidSpec} {G : SolidGenerator} {ds : List SolidData}
    (hG : S.generator = .ok G) (hd : G.data 1 = .ok ds) : ∃ X V, SolidMesh S G.ny G.nz ds X V :=
  C236_cells_partial hG hd (by rintro ⟨m, m1, m2, _⟩; omega)

theorem inner_lt {S : SolidSpec} (hR : 0 < S.radius) (hn : 0 < S.rings) :
    0 < innerRadius S ∧ innerRadius S < S.radius := by
  have hn' : (1 : ℝ) ≤ S.rings := by exact_mod_cast hn
  have hs : (1 : ℝ) < Real.sqrt Real.pi := by
    rw [Real.lt_sqrt (by norm_num)]
    have := Real.pi_gt_three
    linarith
  have h1 : (1 : ℝ) < S.rings * Real.sqrt Real.pi := by nlinarith
  refine ⟨?_, ?_⟩
  · rw [innerRadius]
    exact div_pos hR (by linarith)
  · rw [innerRadius]
    exact div_lt_self hR h1

/-- C236.  Solid cylinders of positive radius, with rings, can be made. -/
theorem C236_defined {S : SolidSpec} {procs : Nat} (hR : 0 < S.radius) (hn : 0 < S.rings) (hL : 0 ≤ S.length)
    (hp : procs ≠ 0) : ∃ G ds, S.generator = .ok G ∧ G.data procs = .ok ds := by
  have hn' : (0 : ℝ) < S.rings := by exact_mod_cast hn
  obtain ⟨h1, h2⟩ := inner_lt hR hn
  have hq : 0 ≤ S.length / ((S.radius - S.coreRadius) / S.rings) := by
    rw [coreRadius_eq]
    exact div_nonneg hL (div_nonneg (by linarith) hn'.le)
  have hG : ∃ G, S.generator = .ok G := by
    rw [SolidSpec.generator, if_neg]
    · exact ⟨_, rfl⟩
    · rintro (h | h | h)
      · omega
      · rw [coreRadius_eq] at h
        linarith
      · linarith
  obtain ⟨G, hG⟩ := hG
  have hd : ∃ ds, G.data procs = .ok ds := by
    rw [SolidGenerator.data, cellsPerProc_ok hp]
    exact ⟨_, rfl⟩
  obtain ⟨ds, hd⟩ := hd
  exact ⟨G, ds, hG, hd⟩

/-- The ids of the processors, from the numbers of cells. -/
def idsOf (nx ny nz : Nat) : List Nat → Cell → List (List Nat)
  | [], _ => []
  | my :: rest, c =>
    (solidWalk nx ny nz my c).out.map (Place.gid nx ny) :: idsOf nx ny nz rest (solidWalk nx ny nz my c).here

theorem iterate_ids (G : SolidGenerator) : ∀ (counts : List Nat) (c : Cell),
    (G.iterate counts c).map SolidData.gids = idsOf G.nx G.ny G.nz counts c
  | [], _ => rfl
  | my :: rest, c => by
    rw [idsOf, ← iterate_ids G rest]
    rfl

/-- The cylinder of the unit tests
(src/io/mesh_input/quick_grid/unit_test/ut_QuickGrid_solidCylinder_np1.cxx and _np2.cxx). -/
noncomputable def tested : SolidSpec := ⟨1, 2, 0, 1⟩

theorem sqrt_pi_bounds : (1.77 : ℝ) < Real.sqrt Real.pi ∧ Real.sqrt Real.pi < 1.78 := by
  have h1 := Real.pi_gt_d2
  have h2 := Real.pi_lt_d2
  refine ⟨?_, ?_⟩
  · rw [Real.lt_sqrt (by norm_num)]
    norm_num
    linarith
  · rw [Real.sqrt_lt' (by norm_num)]
    norm_num
    linarith

theorem tested_rays : tested.rays = 9 := by
  obtain ⟨s1, s2⟩ := sqrt_pi_bounds
  have h1 := Real.pi_gt_d2
  have h2 := Real.pi_lt_d2
  have hs : Real.sqrt Real.pi * Real.sqrt Real.pi = Real.pi := Real.mul_self_sqrt Real.pi_pos.le
  have hpos : 0 < Real.sqrt Real.pi := by linarith
  have e : 2 * Real.pi / tested.dTheta = 2 * Real.pi + Real.sqrt Real.pi := by
    rw [SolidSpec.dTheta, tested]
    push_cast
    rw [div_div_eq_mul_div, div_eq_iff (by positivity)]
    nlinarith
  rw [SolidSpec.rays, e, truncate]
  have : ⌊2 * Real.pi + Real.sqrt Real.pi⌋₊ = 8 := by
    rw [Nat.floor_eq_iff (by positivity)]
    norm_num
    constructor <;> linarith
  rw [this]

theorem tested_layers : tested.axisSpec.n = 3 := by
  obtain ⟨s1, s2⟩ := sqrt_pi_bounds
  have hpos : 0 < Real.sqrt Real.pi := by linarith
  show truncate (1 / ((1 - tested.coreRadius) / (2 : Nat))) + 1 = 3
  have hc : tested.coreRadius = 1 / (2 * Real.sqrt Real.pi) := by
    rw [coreRadius_eq, innerRadius, tested]
    norm_num
  have h1 : 1 / (2 * Real.sqrt Real.pi) < 1 / (2 * 1.77) := by
    apply one_div_lt_one_div_of_lt <;> linarith
  have h2 : 1 / (2 * 1.78) < 1 / (2 * Real.sqrt Real.pi) := by
    apply one_div_lt_one_div_of_lt <;> linarith
  have : ⌊(1 : ℝ) / ((1 - tested.coreRadius) / (2 : Nat))⌋₊ = 2 := by
    rw [hc]
    have hd : (0 : ℝ) < (1 - 1 / (2 * Real.sqrt Real.pi)) / (2 : Nat) := by
      norm_num at h1 h2 ⊢
      linarith
    rw [Nat.floor_eq_iff (by positivity)]
    rw [le_div_iff₀ hd, div_lt_iff₀ hd]
    push_cast
    norm_num at h1 h2 ⊢
    constructor <;> linarith
  rw [truncate, this]

/-- C236 is false: the cylinder of the unit tests has 57 points, and on ten processors point 20 is on none of them. -/
theorem C236_missing : ∃ G ds, tested.generator = .ok G ∧ G.data 10 = .ok ds ∧ (2 * G.ny + 1) * G.nz = 57 ∧
    (∀ d ∈ ds, d.globalNumPoints = 57) ∧ (∀ d ∈ ds, 20 ∉ d.gids) ∧
    (ds.map SolidData.numPoints).sum = 57 := by
  obtain ⟨G, ds, hG, hd⟩ := C236_defined (S := tested) (procs := 10) (by norm_num [tested]) (by norm_num [tested])
    (by norm_num [tested]) (by norm_num)
  obtain ⟨_, e1, e2, e3, _⟩ := generator_eq hG
  have n1 : G.nx = 2 := e1
  have n2 : G.ny = 9 := e2.trans tested_rays
  have n3 : G.nz = 3 := e3.trans tested_layers
  have htot : G.total = 57 := by rw [SolidGenerator.total, n1, n2, n3]
  obtain ⟨_, eds⟩ := solid_data hd
  rw [htot] at eds
  refine ⟨G, ds, hG, hd, by rw [n2, n3], ?_, ?_, ?_⟩
  · intro d hdm
    have hall : ∀ (counts : List Nat) (c : Cell), ∀ d ∈ G.iterate counts c, d.globalNumPoints = G.total := by
      intro counts
      induction counts with
      | nil => intro c d hd; exact absurd hd (by simp [SolidGenerator.iterate])
      | cons my rest ih =>
        intro c d hd
        rcases List.mem_cons.1 hd with e | e
        · rw [e]; exact solid_total G
        · exact ih _ d e
    rw [eds] at hdm
    rw [hall _ _ d hdm, htot]
  · intro d hdm
    have h1 : d.gids ∈ ds.map SolidData.gids := List.mem_map_of_mem hdm
    rw [eds, iterate_ids, n1, n2, n3] at h1
    have h2 : ∀ l ∈ idsOf 2 9 3 (List.replicate (10 - 1) (57 / 10) ++ [57 / 10 + 57 % 10]) (locatorAt 2 9 0), 20 ∉ l := by
      decide +kernel
    exact h2 _ h1
  · have hall : ∀ (counts : List Nat) (c : Cell), (G.iterate counts c).map SolidData.numPoints = counts := by
      intro counts
      induction counts with
      | nil => intro c; rfl
      | cons my rest ih => intro c; rw [SolidGenerator.iterate, List.map_cons, ih]; rfl
    rw [eds, hall]
    rfl

example : ∃ G ds X V, tested.generator = .ok G ∧ G.data 2 = .ok ds ∧ SolidMesh tested 9 3 ds X V := by
  obtain ⟨G, ds, hG, hd⟩ := C236_defined (S := tested) (procs := 2) (by norm_num [tested]) (by norm_num [tested])
    (by norm_num [tested]) (by norm_num)
  obtain ⟨_, _, e2, e3, _⟩ := generator_eq hG
  have n2 : G.ny = 9 := e2.trans tested_rays
  have n3 : G.nz = 3 := e3.trans tested_layers
  obtain ⟨X, V, h⟩ := C236_cells_partial hG hd (by
    rw [n2, n3]
    rintro ⟨m, m1, m2, m3⟩
    have : m = 1 := by omega
    subst this
    exact absurd m3 (by show ¬ (1 * ((2 * 9 + 1) * 3 / 2)) % (2 * 9 + 1) = 1; norm_num))
  rw [n2, n3] at h
  exact ⟨G, ds, X, V, hG, hd, h⟩

/-! ## C237: the body is a cylinder -/

theorem sum_split (a b : Nat) (q : Nat → ℝ) :
    ∑ g ∈ Finset.range (a * b), q g = ∑ y ∈ Finset.range b, ∑ x ∈ Finset.range a, q (x + a * y) := by
  induction b with
  | zero => simp
  | succ b ih =>
      rw [Nat.mul_succ, Finset.sum_range_add, ih, Finset.sum_range_succ]
      congr 1
      exact Finset.sum_congr rfl fun x _ => by rw [Nat.add_comm]

theorem list_range_sum (n : Nat) (q : Nat → ℝ) : ((List.range n).map q).sum = ∑ g ∈ Finset.range n, q g := by
  induction n with
  | zero => simp
  | succ n ih => rw [List.range_succ, List.map_append, List.sum_append, ih, Finset.sum_range_succ]; simp

/-- C237.  If the data describe the cells, the volumes of all points add up to the volume of the cylinder. -/
theorem C237_volume {S : SolidSpec} {rays layers : Nat} {ds : List SolidData} {X : Nat → V3} {V : Nat → ℝ}
    (hM : SolidMesh S rays layers ds X V) (hn : 0 < S.rings) (hr : 0 < rays) (hl : 0 < layers) :
    ((ds.map SolidData.volume).flatten).sum = Real.pi * S.radius ^ 2 * S.length := by
  have e : (ds.map SolidData.volume).flatten = ((ds.map SolidData.gids).flatten).map V := by
    rw [List.map_flatten, List.map_map]
    congr 1
    exact List.map_congr_left fun d hd => hM.volume d hd
  rw [e, hM.gids, list_range_sum, sum_split]
  have hny : (rays : ℝ) ≠ 0 := by exact_mod_cast hr.ne'
  have hnz : (layers : ℝ) ≠ 0 := by exact_mod_cast hl.ne'
  have hlayer : ∀ k ∈ Finset.range layers,
      ∑ x ∈ Finset.range (S.rings * rays + 1), V (x + (S.rings * rays + 1) * k) =
        Real.pi * S.radius ^ 2 * (S.length / layers) := by
    intro k hk
    rw [Finset.mem_range] at hk
    rw [Finset.sum_range_succ', Nat.zero_add, (hM.core k hk).2, sum_split]
    have hrow : ∀ j ∈ Finset.range rays, ∑ i ∈ Finset.range S.rings, V (i + S.rings * j + 1 + (S.rings * rays + 1) * k) =
        (S.radius ^ 2 - innerRadius S ^ 2) / 2 * (2 * Real.pi / rays * (S.length / layers)) := by
      intro j hj
      rw [Finset.mem_range] at hj
      rw [← sum_mid (innerRadius S) S.radius S.rings hn, Finset.sum_mul]
      refine Finset.sum_congr rfl fun i hi => ?_
      rw [show i + S.rings * j + 1 + (S.rings * rays + 1) * k = 1 + i + S.rings * j + (S.rings * rays + 1) * k by ring,
        (hM.ring i j k (Finset.mem_range.1 hi) hj hk).2]
      ring
    rw [Finset.sum_congr rfl hrow, Finset.sum_const, Finset.card_range, nsmul_eq_mul]
    field_simp
    ring
  rw [Finset.sum_congr rfl hlayer, Finset.sum_const, Finset.card_range, nsmul_eq_mul]
  field_simp

/-- C237.  All points are inside the cylinder. -/
theorem C237_inside {S : SolidSpec} {rays layers : Nat} {ds : List SolidData} {X : Nat → V3} {V : Nat → ℝ}
    (hM : SolidMesh S rays layers ds X V) (hR : 0 < S.radius) (hn : 0 < S.rings) (hL : 0 < S.length) :
    ∀ d ∈ ds, ∀ p ∈ d.x, Real.sqrt (p 0 ^ 2 + p 1 ^ 2) < S.radius ∧ S.zStart < p 2 ∧ p 2 < S.zStart + S.length := by
  obtain ⟨i1, i2⟩ := inner_lt hR hn
  intro d hdm p hp
  rw [hM.x d hdm, List.mem_map] at hp
  obtain ⟨g, hg, rfl⟩ := hp
  have hgt : g < (S.rings * rays + 1) * layers := by
    rw [← List.mem_range, ← hM.gids, List.mem_flatten]
    exact ⟨d.gids, List.mem_map_of_mem hdm, hg⟩
  have hdm' := Nat.mod_add_div g (S.rings * rays + 1)
  have hk : g / (S.rings * rays + 1) < layers := Nat.div_lt_of_lt_mul hgt
  obtain ⟨m3, m4⟩ := mid_inside (x0 := S.zStart) hL hk
  rcases Nat.eq_zero_or_pos (g % (S.rings * rays + 1)) with h | h
  · have e : X g = ![0, 0, mid S.zStart S.length layers (g / (S.rings * rays + 1))] := by
      have := (hM.core _ hk).1
      rw [show (S.rings * rays + 1) * (g / (S.rings * rays + 1)) = g by omega] at this
      exact this
    rw [e]
    refine ⟨?_, m3, m4⟩
    simp only [Matrix.cons_val_zero, Matrix.cons_val_one]
    norm_num
    exact hR
  · have hml : g % (S.rings * rays + 1) < S.rings * rays + 1 := Nat.mod_lt _ (by omega)
    have hi : (g % (S.rings * rays + 1) - 1) % S.rings < S.rings := Nat.mod_lt _ hn
    have hj : (g % (S.rings * rays + 1) - 1) / S.rings < rays := Nat.div_lt_of_lt_mul (by omega)
    have hrow := Nat.mod_add_div (g % (S.rings * rays + 1) - 1) S.rings
    have e := (hM.ring _ _ _ hi hj hk).1
    rw [show 1 + (g % (S.rings * rays + 1) - 1) % S.rings + S.rings * ((g % (S.rings * rays + 1) - 1) / S.rings) +
      (S.rings * rays + 1) * (g / (S.rings * rays + 1)) = g by omega] at e
    rw [e]
    obtain ⟨m1, m2⟩ := mid_inside (x0 := innerRadius S) (L := S.radius - innerRadius S) (by linarith) hi
    have hr : ∀ r θ : ℝ, 0 ≤ r → Real.sqrt ((r * Real.cos θ) ^ 2 + (r * Real.sin θ) ^ 2) = r := by
      intro r θ hr
      rw [show (r * Real.cos θ) ^ 2 + (r * Real.sin θ) ^ 2 =
        r ^ 2 * (Real.cos θ ^ 2 + Real.sin θ ^ 2) by ring, Real.cos_sq_add_sin_sq, mul_one,
        Real.sqrt_sq hr]
    simp only [Matrix.cons_val_zero, Matrix.cons_val_one, Matrix.cons_val]
    rw [hr _ _ (by linarith)]
    exact ⟨by linarith, m3, m4⟩

example : ∃ G ds, tested.generator = .ok G ∧ G.data 1 = .ok ds ∧
    ((ds.map SolidData.volume).flatten).sum = Real.pi * 1 ^ 2 * 1 ∧
    ∀ d ∈ ds, ∀ p ∈ d.x, Real.sqrt (p 0 ^ 2 + p 1 ^ 2) < 1 := by
  obtain ⟨G, ds, hG, hd⟩ := C236_defined (S := tested) (procs := 1) (by norm_num [tested]) (by norm_num [tested])
    (by norm_num [tested]) (by norm_num)
  obtain ⟨_, _, e2, e3, _⟩ := generator_eq hG
  obtain ⟨X, V, h⟩ := C236_one_processor hG hd
  exact ⟨G, ds, hG, hd, C237_volume h (by norm_num [tested]) (by rw [e2, tested_rays]; norm_num)
    (by rw [e3, tested_layers]; norm_num), fun d hdm p hp =>
    (C237_inside h (by norm_num [tested]) (by norm_num [tested]) (by norm_num [tested]) d hdm p hp).1⟩

end Verif.Grid
