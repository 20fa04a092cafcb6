import Verif.Grid.BoxLemmas
import Mathlib.Data.Nat.ModEq
import Mathlib.Data.Finset.Card
import Mathlib.Algebra.BigOperators.Intervals

/-! # Cylinders (helper lemmas) -/

namespace Verif.Grid

open Verif Verif.Mech Verif.Neigh

theorem ringLoop_eq {rays : Nat} (hr : 0 < rays) : ∀ (n ray : Nat), ray < rays →
    ringLoop rays n ray = (List.range n).map fun t => (ray + t) % rays
  | 0, _, _ => rfl
  | n + 1, ray, h => by
      have hnext : (if ray < rays - 1 then ray + 1 else 0) < rays := by split <;> omega
      rw [ringLoop, ringLoop_eq hr n _ hnext, List.range_succ_eq_map, List.map_cons, List.map_map]
      congr 1
      · rw [Nat.add_zero, Nat.mod_eq_of_lt h]
      · refine List.map_congr_left fun t _ => ?_
        show ((if ray < rays - 1 then ray + 1 else 0) + t) % rays = (ray + (t + 1)) % rays
        split
        · rw [show ray + 1 + t = ray + (t + 1) by omega]
        · rw [show ray + (t + 1) = (0 + t) + rays by omega, Nat.add_mod_right]

theorem ringStart_lt {reach rays j : Nat} (hr : reach ≤ rays) (hj : j < rays) :
    ringStart reach rays j < rays := by
  rw [ringStart]
  split <;> omega

theorem ringStart_mod {reach rays j t : Nat} (hr : reach ≤ rays) :
    (ringStart reach rays j + t + reach) % rays = (j + t) % rays := by
  rw [ringStart]
  split
  · rw [show j - reach + t + reach = j + t by omega]
  · rw [show rays - (reach - j) + t + reach = j + t + rays by omega, Nat.add_mod_right]

theorem ringCells_eq {reach rays j : Nat} (hr : reach ≤ rays) (hj : j < rays) :
    ringCells reach rays j =
      (List.range (2 * reach + 1)).map fun t => (ringStart reach rays j + t) % rays :=
  ringLoop_eq (by omega) _ _ (ringStart_lt hr hj)

theorem ringCells_lt {reach rays j jj : Nat} (hr : reach ≤ rays) (hj : j < rays)
    (h : jj ∈ ringCells reach rays j) : jj < rays := by
  rw [ringCells_eq hr hj, List.mem_map] at h
  obtain ⟨t, _, rfl⟩ := h
  exact Nat.mod_lt _ (by omega)

theorem ringCells_length {reach rays j : Nat} (hr : reach ≤ rays) (hj : j < rays) :
    (ringCells reach rays j).length = 2 * reach + 1 := by
  rw [ringCells_eq hr hj, List.length_map, List.length_range]

theorem ring_hit {reach rays j jj t : Nat} (hr : reach ≤ rays) (hj' : jj < rays) :
    (ringStart reach rays j + t) % rays = jj ↔ (jj + reach) % rays = (j + t) % rays := by
  constructor
  · intro h
    rw [← ringStart_mod (reach := reach) (j := j) (t := t) hr, Nat.add_mod, ← h, Nat.mod_mod,
      ← Nat.add_mod]
  · intro h
    rw [← ringStart_mod (reach := reach) (j := j) (t := t) hr] at h
    have h' : jj ≡ ringStart reach rays j + t [MOD rays] := Nat.ModEq.add_right_cancel' reach h
    have : jj % rays = (ringStart reach rays j + t) % rays := h'
    rw [← this, Nat.mod_eq_of_lt hj']

/-- How often a ray is visited: once for every number of steps that leads to it. -/
theorem ringCells_count {reach rays j jj : Nat} (hr : reach ≤ rays) (hj : j < rays) (hj' : jj < rays) :
    (ringCells reach rays j).count jj =
      ((Finset.range (2 * reach + 1)).filter fun t => (jj + reach) % rays = (j + t) % rays).card := by
  rw [ringCells_eq hr hj]
  have hgen : ∀ n, ((List.range n).map fun t => (ringStart reach rays j + t) % rays).count jj =
      ((Finset.range n).filter fun t => (jj + reach) % rays = (j + t) % rays).card := by
    intro n
    induction n with
    | zero => rfl
    | succ n ih =>
        rw [List.range_succ, List.map_append, List.count_append, ih, Finset.range_add_one,
          Finset.filter_insert]
        by_cases h : (ringStart reach rays j + n) % rays = jj
        · rw [if_pos ((ring_hit hr hj').1 h), Finset.card_insert_of_notMem (by simp)]
          simp [h]
        · rw [if_neg (fun q => h ((ring_hit hr hj').2 q))]
          simp [h]
  exact hgen _

theorem ringCells_symm {reach rays j jj : Nat} (hr : reach ≤ rays) (hj : j < rays) (hj' : jj < rays) :
    (ringCells reach rays j).count jj = (ringCells reach rays jj).count j := by
  rw [ringCells_count hr hj hj', ringCells_count hr hj' hj]
  have key : ∀ a b t : Nat, t ≤ 2 * reach → (a + reach) % rays = (b + t) % rays →
      (b + reach) % rays = (a + (2 * reach - t)) % rays := by
    intro a b t ht h
    have h1 : a + reach ≡ b + t [MOD rays] := h
    have h2 : a + (2 * reach - t) + t ≡ b + reach + t [MOD rays] := by
      have e1 : a + (2 * reach - t) + t = a + reach + reach := by omega
      have e2 : b + reach + t = b + t + reach := by omega
      rw [e1, e2]
      exact h1.add_right reach
    exact (Nat.ModEq.add_right_cancel' t h2).symm
  refine Finset.card_bij (fun t _ => 2 * reach - t) ?_ ?_ ?_
  · intro t ht
    rw [Finset.mem_filter, Finset.mem_range] at ht ⊢
    exact ⟨by omega, key jj j t (by omega) ht.2⟩
  · intro a ha b hb h
    rw [Finset.mem_filter, Finset.mem_range] at ha hb
    omega
  · intro t ht
    rw [Finset.mem_filter, Finset.mem_range] at ht
    refine ⟨2 * reach - t, ?_, by omega⟩
    rw [Finset.mem_filter, Finset.mem_range]
    exact ⟨by omega, key j jj t (by omega) ht.2⟩

theorem self_mem_ringCells {reach rays j : Nat} (hr : reach ≤ rays) (hj : j < rays) :
    j ∈ ringCells reach rays j := by
  rw [ringCells_eq hr hj, List.mem_map]
  refine ⟨reach, by rw [List.mem_range]; omega, ?_⟩
  rw [ring_hit hr hj]

theorem ringCells_once {reach rays j jj : Nat} (hr : reach ≤ rays) (hj : j < rays) (hj' : jj < rays)
    (hs : 2 * reach + 1 ≤ rays) : (ringCells reach rays j).count jj ≤ 1 := by
  rw [ringCells_count hr hj hj', Finset.card_le_one]
  intro a ha b hb
  rw [Finset.mem_filter, Finset.mem_range] at ha hb
  have h : j + a ≡ j + b [MOD rays] := by
    show (j + a) % rays = (j + b) % rays
    rw [← ha.2, hb.2]
  have h' : a ≡ b [MOD rays] := Nat.ModEq.add_left_cancel' j h
  exact Nat.ModEq.eq_of_lt_of_lt h' (by omega) (by omega)

theorem self_mem_cells {w : Window} {i : Nat} (hr : w.reach ≤ w.n) (hi : i < w.n) : i ∈ w.cells i :=
  (mem_cells hr hi).2 ⟨hi, by omega, by omega⟩

/-! ## The generator -/

theorem cylinder_eq {h : ℝ} {R : Ring} {norm : Norm} {G : Generator}
    (e : cylinder h R norm = .ok G) :
    ∃ rays zs hz reach hr, R.rays = .ok rays ∧ R.axisSpec = .ok zs ∧ zs.window h = .ok hz ∧
      (ringSpec rays).reach h ((R.inner + R.outer) / 2) = .ok reach ∧ R.raySpec.window h = .ok hr ∧
      G = { nx := R.rings, ny := rays, nz := zs.n
            point := cylinderPoint R.raySpec (ringSpec rays) zs
            volume := fun c => R.raySpec.centers.getD c.i 0 * R.raySpec.cellSize *
              (ringSpec rays).cellSize * zs.cellSize
            neighbors := fun c => neighborsIn R.rings rays
              (cylinderPoint R.raySpec (ringSpec rays) zs) norm h (hr.cells c.i)
              (ringCells reach rays c.j) (hz.cells c.k) c
            bound := fun c => hr.numCells c.i * (2 * reach + 1) * hz.numCells c.k - 1 } := by
  rw [cylinder, Outcome.bind_eq_ok] at e
  obtain ⟨rays, h1, e⟩ := e
  rw [Outcome.bind_eq_ok] at e
  obtain ⟨zs, h2, e⟩ := e
  rw [Outcome.bind_eq_ok] at e
  obtain ⟨hz, h3, e⟩ := e
  rw [Outcome.bind_eq_ok] at e
  obtain ⟨reach, h4, e⟩ := e
  rw [Outcome.bind_eq_ok] at e
  obtain ⟨hr, h5, e⟩ := e
  rw [Outcome.bind_eq_ok] at e
  obtain ⟨_, _, e⟩ := e
  injection e with e
  exact ⟨rays, zs, hz, reach, hr, h1, h2, h3, h4, h5, e.symm⟩

theorem rays_pos {R : Ring} {rays : Nat} (h : R.rays = .ok rays) : 0 < rays ∧ R.rings ≠ 0 := by
  unfold Ring.rays at h
  split at h
  · exact absurd h (by simp)
  · rename_i hc
    injection h with h
    exact ⟨by omega, fun e => hc (Or.inl e)⟩

theorem axis_pos {R : Ring} {zs : Spec} (h : R.axisSpec = .ok zs) :
    0 < zs.n ∧ zs.x0 = R.zStart ∧ zs.length = R.length := by
  unfold Ring.axisSpec at h
  split at h
  · exact absurd h (by simp)
  · injection h with h
    subst h
    exact ⟨Nat.succ_pos _, rfl, rfl⟩

/-- A sum over all cells is a threefold sum. -/
theorem sum_cells (nx ny nz : Nat) (f : Cell → ℝ) :
    ((List.range (nx * ny * nz)).map fun g => f (cellAt nx ny g)).sum =
      ∑ k ∈ Finset.range nz, ∑ j ∈ Finset.range ny, ∑ i ∈ Finset.range nx, f ⟨i, j, k⟩ := by
  have hlist : ∀ (n : Nat) (q : Nat → ℝ), ((List.range n).map q).sum = ∑ g ∈ Finset.range n, q g := by
    intro n q
    induction n with
    | zero => simp
    | succ n ih => rw [List.range_succ, List.map_append, List.sum_append, ih, Finset.sum_range_succ]; simp
  rw [hlist]
  have split : ∀ (a b : Nat) (q : Nat → ℝ),
      ∑ g ∈ Finset.range (a * b), q g = ∑ y ∈ Finset.range b, ∑ x ∈ Finset.range a, q (x + a * y) := by
    intro a b q
    induction b with
    | zero => simp
    | succ b ih =>
        rw [Nat.mul_succ, Finset.sum_range_add, ih, Finset.sum_range_succ]
        congr 1
        exact Finset.sum_congr rfl fun x _ => by rw [Nat.add_comm]
  rw [Nat.mul_assoc, show nx * (ny * nz) = nx * (ny * nz) from rfl, split nx (ny * nz), split ny nz]
  refine Finset.sum_congr rfl fun k _ => Finset.sum_congr rfl fun j hj => Finset.sum_congr rfl
    fun i hi => ?_
  rw [Finset.mem_range] at hi hj
  rw [cellAt_of k hi hj]

theorem sum_mid (a b : ℝ) (n : Nat) (hn : 0 < n) :
    ∑ i ∈ Finset.range n, mid a (b - a) n i * ((b - a) / n) = (b ^ 2 - a ^ 2) / 2 := by
  have hgen : ∀ m : Nat, ∑ i ∈ Finset.range m, mid a (b - a) n i * ((b - a) / n) =
      (a + m * ((b - a) / n)) ^ 2 / 2 - a ^ 2 / 2 := by
    intro m
    induction m with
    | zero => simp
    | succ m ih =>
        rw [Finset.sum_range_succ, ih, mid]
        push_cast
        ring
  rw [hgen]
  have : (n : ℝ) ≠ 0 := by exact_mod_cast hn.ne'
  have e : (n : ℝ) * ((b - a) / n) = b - a := by field_simp
  rw [e]
  ring

end Verif.Grid
