import Verif.Sizes.Model
import Mathlib.Order.Bounds.Basic
import Mathlib.Tactic.Linarith
import Mathlib.Tactic.NormNum
import Mathlib.Tactic.Positivity

/-! C231: sizes of the elements and what depends on them. -/

namespace Verif.Sizes

open Verif

theorem radius_pos {v : ℝ} (h : 0 < v) : 0 < radius v := by
  unfold radius
  exact Real.rpow_pos_of_pos (by positivity) _

/-- What the loop over elements keeps. -/
theorem foldl_scan (l : List ℝ) (m : ℝ × ℝ) (h : ∀ v ∈ l, 0 < v) :
    ((l.foldl scan m).1 = m.1 ∨ ∃ v ∈ l, (l.foldl scan m).1 = radius v) ∧ (l.foldl scan m).1 ≤ m.1 ∧
    ((l.foldl scan m).2 = m.2 ∨ ∃ v ∈ l, (l.foldl scan m).2 = radius v) ∧ m.2 ≤ (l.foldl scan m).2 ∧
    ∀ v ∈ l, (l.foldl scan m).1 ≤ radius v ∧ radius v ≤ (l.foldl scan m).2 := by
  induction l generalizing m with
  | nil => simp
  | cons a l ih =>
    obtain ⟨h1, h2, h3, h4, h5⟩ := ih (scan m a) fun v hv => h v (List.mem_cons_of_mem _ hv)
    have ha : ¬ a < 0 := not_lt.2 (h a List.mem_cons_self).le
    have e : scan m a = (if radius a < m.1 then radius a else m.1, if m.2 < radius a then radius a else m.2) := by
      unfold scan; rw [if_neg ha]
    have e1 : ((scan m a).1 = m.1 ∨ (scan m a).1 = radius a) ∧ (scan m a).1 ≤ m.1 ∧ (scan m a).1 ≤ radius a := by
      rw [e]
      by_cases hc : radius a < m.1
      · simp only [if_pos hc]; exact ⟨.inr trivial, hc.le, le_rfl⟩
      · simp only [if_neg hc]; exact ⟨.inl trivial, le_rfl, not_lt.1 hc⟩
    have e2 : ((scan m a).2 = m.2 ∨ (scan m a).2 = radius a) ∧ m.2 ≤ (scan m a).2 ∧ radius a ≤ (scan m a).2 := by
      rw [e]
      by_cases hc : m.2 < radius a
      · simp only [if_pos hc]; exact ⟨.inr trivial, hc.le, le_rfl⟩
      · simp only [if_neg hc]; exact ⟨.inl trivial, le_rfl, not_lt.1 hc⟩
    rw [List.foldl_cons]
    refine ⟨?_, h2.trans e1.2.1, ?_, e2.2.1.trans h4, ?_⟩
    · rcases h1 with h1 | ⟨v, hv, h1⟩
      · rcases e1.1 with e1 | e1
        · exact .inl (h1.trans e1)
        · exact .inr ⟨a, List.mem_cons_self, h1.trans e1⟩
      · exact .inr ⟨v, List.mem_cons_of_mem _ hv, h1⟩
    · rcases h3 with h3 | ⟨v, hv, h3⟩
      · rcases e2.1 with e2 | e2
        · exact .inl (h3.trans e2)
        · exact .inr ⟨a, List.mem_cons_self, h3.trans e2⟩
      · exact .inr ⟨v, List.mem_cons_of_mem _ hv, h3⟩
    · intro v hv
      rcases List.mem_cons.1 hv with rfl | hv
      · exact ⟨h2.trans e1.2.2, e2.2.2.trans h4⟩
      · exact h5 v hv

/-- What the reduction over processors keeps. -/
theorem foldl_pairs (l : List (ℝ × ℝ)) (m : ℝ × ℝ) :
    (∃ b ∈ m :: l, (l.foldl (fun a b => (min a.1 b.1, max a.2 b.2)) m).1 = b.1) ∧
    (∃ b ∈ m :: l, (l.foldl (fun a b => (min a.1 b.1, max a.2 b.2)) m).2 = b.2) ∧
    ∀ b ∈ m :: l, (l.foldl (fun a b => (min a.1 b.1, max a.2 b.2)) m).1 ≤ b.1 ∧
      b.2 ≤ (l.foldl (fun a b => (min a.1 b.1, max a.2 b.2)) m).2 := by
  induction l generalizing m with
  | nil => simp
  | cons c l ih =>
    obtain ⟨⟨b, hb, h1⟩, ⟨b', hb', h2⟩, h3⟩ := ih (min m.1 c.1, max m.2 c.2)
    rw [List.foldl_cons]
    have h0 := h3 _ List.mem_cons_self
    refine ⟨?_, ?_, ?_⟩
    · rcases List.mem_cons.1 hb with rfl | hb
      · rcases min_choice m.1 c.1 with e | e
        · exact ⟨m, by simp, h1.trans e⟩
        · exact ⟨c, by simp, h1.trans e⟩
      · exact ⟨b, by simp [hb], h1⟩
    · rcases List.mem_cons.1 hb' with rfl | hb'
      · rcases max_choice m.2 c.2 with e | e
        · exact ⟨m, by simp, h2.trans e⟩
        · exact ⟨c, by simp, h2.trans e⟩
      · exact ⟨b', by simp [hb'], h2⟩
    · intro x hx
      simp only [List.mem_cons] at hx
      rcases hx with rfl | rfl | hx
      · exact ⟨h0.1.trans (min_le_left _ _), (le_max_left _ _).trans h0.2⟩
      · exact ⟨h0.1.trans (min_le_right _ _), (le_max_right _ _).trans h0.2⟩
      · exact h3 x (List.mem_cons_of_mem _ hx)

/-- **C231** (mesh): the two radii of a mesh with elements of positive volume are the smallest and the largest radius over
the elements of all processors, if none is larger than 10^50. -/
theorem C231_mesh (volumes : List (List ℝ)) (hp : ∀ part ∈ volumes, ∀ v ∈ part, 0 < v)
    (hs : ∀ part ∈ volumes, ∀ v ∈ part, radius v ≤ 10 ^ 50) (hn : ∃ part ∈ volumes, part ≠ []) :
    ∃ m, meshRadii volumes = .ok m ∧ IsLeast {r | ∃ part ∈ volumes, ∃ v ∈ part, r = radius v} m.1 ∧
      IsGreatest {r | ∃ part ∈ volumes, ∃ v ∈ part, r = radius v} m.2 := by
  obtain ⟨part0, hpart0, hne⟩ := hn
  obtain ⟨v0, hv0⟩ := List.exists_mem_of_ne_nil _ hne
  cases hm : volumes.map onProcessor with
  | nil =>
    rw [List.map_eq_nil_iff] at hm
    subst hm
    cases hpart0
  | cons m ms =>
    refine ⟨ms.foldl (fun a b => (min a.1 b.1, max a.2 b.2)) m, by unfold meshRadii; rw [hm]; rfl, ?_⟩
    obtain ⟨⟨b, hb, h1⟩, ⟨b', hb', h2⟩, h3⟩ := foldl_pairs ms m
    rw [← hm] at hb hb' h3
    have hall : ∀ part ∈ volumes, ∀ v ∈ part, (ms.foldl (fun a b => (min a.1 b.1, max a.2 b.2)) m).1 ≤ radius v ∧
        radius v ≤ (ms.foldl (fun a b => (min a.1 b.1, max a.2 b.2)) m).2 := by
      intro part hpart v hv
      have k := h3 _ (List.mem_map_of_mem hpart)
      have j := (foldl_scan part (10 ^ 50, 0) (hp part hpart)).2.2.2.2 v hv
      exact ⟨k.1.trans j.1, j.2.trans k.2⟩
    constructor
    · refine ⟨?_, ?_⟩
      · obtain ⟨part, hpart, rfl⟩ := List.mem_map.1 hb
        rcases (foldl_scan part (10 ^ 50, 0) (hp part hpart)).1 with e | ⟨v, hv, e⟩
        · have : (ms.foldl (fun a b => (min a.1 b.1, max a.2 b.2)) m).1 = radius v0 := by
            refine le_antisymm (hall _ hpart0 _ hv0).1 ?_
            rw [h1]
            unfold onProcessor
            rw [e]
            exact hs _ hpart0 _ hv0
          exact ⟨part0, hpart0, v0, hv0, this⟩
        · exact ⟨part, hpart, v, hv, h1.trans e⟩
      · rintro r ⟨part, hpart, v, hv, rfl⟩
        exact (hall part hpart v hv).1
    · refine ⟨?_, ?_⟩
      · obtain ⟨part, hpart, rfl⟩ := List.mem_map.1 hb'
        rcases (foldl_scan part (10 ^ 50, 0) (hp part hpart)).2.2.1 with e | ⟨v, hv, e⟩
        · exfalso
          have k := (hall part0 hpart0 v0 hv0).2
          rw [h2] at k
          unfold onProcessor at k
          rw [e] at k
          exact absurd (radius_pos (hp part0 hpart0 v0 hv0)) (not_lt.2 k)
        · exact ⟨part, hpart, v, hv, h2.trans e⟩
      · rintro r ⟨part, hpart, v, hv, rfl⟩
        exact (hall part hpart v hv).2

example : (∀ part ∈ [[1, 2], [], [(4 : ℝ)]], ∀ v ∈ part, (0 : ℝ) < v) ∧ radius 1 ≤ 10 ^ 50 := by
  refine ⟨by norm_num, ?_⟩
  unfold radius
  exact (Real.rpow_le_one (by norm_num) (by norm_num) (by norm_num)).trans (by norm_num)

/-- **C231** (processors): the radii do not depend on the distribution of the elements over the processors. -/
theorem C231_processors (volumes volumes' : List (List ℝ)) (hperm : volumes.flatten.Perm volumes'.flatten)
    (hp : ∀ v ∈ volumes.flatten, 0 < v) (hs : ∀ v ∈ volumes.flatten, radius v ≤ 10 ^ 50) (hn : volumes.flatten ≠ []) :
    meshRadii volumes = meshRadii volumes' := by
  have key : ∀ w : List (List ℝ), volumes.flatten.Perm w.flatten →
      ∃ m, meshRadii w = .ok m ∧ IsLeast {r | ∃ v ∈ volumes.flatten, r = radius v} m.1 ∧
        IsGreatest {r | ∃ v ∈ volumes.flatten, r = radius v} m.2 := by
    intro w hw
    have hmem : ∀ v, (∃ part ∈ w, v ∈ part) ↔ v ∈ volumes.flatten := fun v => by
      rw [hw.mem_iff, List.mem_flatten]
    have hne : ∃ part ∈ w, part ≠ [] := by
      obtain ⟨v, hv⟩ := List.exists_mem_of_ne_nil _ hn
      obtain ⟨part, h1, h2⟩ := (hmem v).2 hv
      exact ⟨part, h1, List.ne_nil_of_mem h2⟩
    obtain ⟨m, h1, h2, h3⟩ := C231_mesh w (fun part h v hv => hp v ((hmem v).1 ⟨part, h, hv⟩))
      (fun part h v hv => hs v ((hmem v).1 ⟨part, h, hv⟩)) hne
    have e : {r | ∃ part ∈ w, ∃ v ∈ part, r = radius v} = {r | ∃ v ∈ volumes.flatten, r = radius v} := by
      ext r
      constructor
      · rintro ⟨part, h, v, hv, rfl⟩
        exact ⟨v, (hmem v).1 ⟨part, h, hv⟩, rfl⟩
      · rintro ⟨v, hv, rfl⟩
        obtain ⟨part, h, hv⟩ := (hmem v).2 hv
        exact ⟨part, h, v, hv, rfl⟩
    rw [e] at h2 h3
    exact ⟨m, h1, h2, h3⟩
  obtain ⟨m, h1, h2, h3⟩ := key volumes (List.Perm.refl _)
  obtain ⟨m', h1', h2', h3'⟩ := key volumes' hperm
  rw [h1, h1', Prod.ext (h2.unique h2') (h3.unique h3')]

example : ([[1], [2, 3]] : List (List ℝ)).flatten.Perm ([[3, 1], [], [2]] : List (List ℝ)).flatten := by
  show [1, 2, 3].Perm [3, 1, 2]
  exact (List.perm_append_comm (l₁ := [1, 2]) (l₂ := [3]))

/-- **C231** (box): the radii of a box are those of its cells, all of which are equal, and no two points of a cell are
farther apart than the largest dimension, which two corners attain. -/
theorem C231_box (lx ly lz : ℝ) (nx ny nz : Nat) (hx : 0 < nx) (hy : 0 < ny) (hz : 0 < nz) (volumes : List (List ℝ))
    (hv : ∀ part ∈ volumes, ∀ v ∈ part, v = lx / nx * (ly / ny) * (lz / nz)) (hl : 0 < lx ∧ 0 < ly ∧ 0 < lz)
    (hs : radius (lx / nx * (ly / ny) * (lz / nz)) ≤ 10 ^ 50) (hn : ∃ part ∈ volumes, part ≠ []) :
    ∃ s, boxSize lx ly lz nx ny nz = .ok s ∧ meshRadii volumes = .ok (s.min, s.max) ∧
      IsGreatest {d | ∃ p q : Fin 3 → ℝ, (∀ i, 0 ≤ p i ∧ p i ≤ ![lx / nx, ly / ny, lz / nz] i) ∧
        (∀ i, 0 ≤ q i ∧ q i ≤ ![lx / nx, ly / ny, lz / nz] i) ∧
        d = Real.sqrt ((p 0 - q 0) ^ 2 + (p 1 - q 1) ^ 2 + (p 2 - q 2) ^ 2)} s.dimension := by
  have ax : 0 < lx / nx := div_pos hl.1 (by exact_mod_cast hx)
  have ay : 0 < ly / ny := div_pos hl.2.1 (by exact_mod_cast hy)
  have az : 0 < lz / nz := div_pos hl.2.2 (by exact_mod_cast hz)
  have hne : ¬ (nx = 0 ∨ ny = 0 ∨ nz = 0) := by omega
  have e : (0.238732414637843 * (lx / nx) * (ly / ny) * (lz / nz)) ^ (0.33333333333333333 : ℝ) =
      radius (lx / nx * (ly / ny) * (lz / nz)) := by
    unfold radius; congr 1; ring
  refine ⟨_, if_neg hne, ?_, ?_⟩
  · obtain ⟨m, h1, h2, h3⟩ := C231_mesh volumes (fun part h v h' => by rw [hv part h v h']; positivity)
      (fun part h v h' => by rw [hv part h v h']; exact hs) hn
    obtain ⟨part, hp, v, hvp, h2⟩ := h2.1
    obtain ⟨part', hp', v', hvp', h3⟩ := h3.1
    rw [hv part hp v hvp] at h2
    rw [hv part' hp' v' hvp'] at h3
    rw [h1]
    simp only [e]
    rw [← h2]
    exact congrArg Outcome.ok (Prod.ext rfl (h3.trans h2.symm))
  · constructor
    · refine ⟨0, ![lx / nx, ly / ny, lz / nz], ?_, ?_, ?_⟩
      · intro i
        refine ⟨le_rfl, ?_⟩
        fin_cases i
        · exact ax.le
        · exact ay.le
        · exact az.le
      · intro i
        refine ⟨?_, le_rfl⟩
        fin_cases i
        · exact ax.le
        · exact ay.le
        · exact az.le
      · simp only [Pi.zero_apply, Matrix.cons_val_zero, Matrix.cons_val_one, Matrix.cons_val]
        congr 1
        ring
    · rintro d ⟨p, q, hp, hq, rfl⟩
      apply Real.sqrt_le_sqrt
      have b : ∀ (i : Fin 3), (p i - q i) ^ 2 ≤ ![lx / nx, ly / ny, lz / nz] i * ![lx / nx, ly / ny, lz / nz] i := by
        intro i
        have := hp i
        have := hq i
        rw [← sq]
        exact sq_le_sq' (by linarith) (by linarith)
      have b0 := b 0
      have b1 := b 1
      have b2 := b 2
      simp only [Matrix.cons_val_zero, Matrix.cons_val_one, Matrix.cons_val] at b0 b1 b2
      linarith

example : ∃ s, boxSize 2 4 6 2 4 6 = .ok s ∧ s.dimension = Real.sqrt 3 :=
  ⟨_, if_neg (by decide), by simp only; norm_num⟩

/-- **C231** (probe): finite differences displace points of a mesh by a positive length that is a millionth of the radius of
the smallest element unless the material gives another. -/
theorem C231_probe (volumes : List (List ℝ)) (hp : ∀ part ∈ volumes, ∀ v ∈ part, 0 < v)
    (hs : ∀ part ∈ volumes, ∀ v ∈ part, radius v ≤ 10 ^ 50) (hn : ∃ part ∈ volumes, part ≠ []) (m : ℝ × ℝ)
    (h : meshRadii volumes = .ok m) :
    0 < probeLength none m.1 ∧ (∀ part ∈ volumes, ∀ v ∈ part, probeLength none m.1 ≤ 0.000001 * radius v) ∧
      (∃ part ∈ volumes, ∃ v ∈ part, probeLength none m.1 = 0.000001 * radius v) ∧
      ∀ l, probeLength (some l) m.1 = l := by
  obtain ⟨m', h1, h2, -⟩ := C231_mesh volumes hp hs hn
  have := Outcome.ok.inj (h.symm.trans h1); subst this
  obtain ⟨part, hpart, v, hv, e⟩ := h2.1
  have pos := radius_pos (hp part hpart v hv)
  unfold probeLength Setup.defaultProbe
  simp only [Option.getD_none, Option.getD_some]
  refine ⟨by rw [e]; positivity, fun part' hp' v' hv' => ?_, ⟨part, hpart, v, hv, by rw [e]⟩, fun _ => trivial⟩
  have := h2.2 ⟨part', hp', v', hv', rfl⟩
  exact mul_le_mul_of_nonneg_left this (by norm_num)

/-- **C231** is false for cylinders: their smallest radius is not set, and finite differences displace points by 10^44. -/
theorem C231_cylinder_fails (cellSize : ℝ) :
    probeLength none (cylinderSize cellSize).min = 10 ^ 44 ∧ (cylinderSize cellSize).dimension = 0 := by
  refine ⟨?_, rfl⟩
  unfold probeLength cylinderSize Setup.defaultProbe
  norm_num

/-- **C231** (contact): a search radius must be given; there is a warning exactly if it is ten times the largest radius of
the mesh or more. -/
theorem C231_contact (volumes : List (List ℝ)) (hp : ∀ part ∈ volumes, ∀ v ∈ part, 0 < v)
    (hs : ∀ part ∈ volumes, ∀ v ∈ part, radius v ≤ 10 ^ 50) (hn : ∃ part ∈ volumes, part ≠ []) (m : ℝ × ℝ)
    (h : meshRadii volumes = .ok m) :
    checkSearchRadius none m.2 = .fail .invalidArgument ∧
    ∀ r, ∃ b, checkSearchRadius (some r) m.2 = .ok b ∧
      (b = true ↔ ∀ part ∈ volumes, ∀ v ∈ part, 10 * radius v ≤ r) := by
  obtain ⟨m', h1, -, h2⟩ := C231_mesh volumes hp hs hn
  have := Outcome.ok.inj (h.symm.trans h1); subst this
  obtain ⟨part, hpart, v, hv, e⟩ := h2.1
  have pos : 0 < m.2 := by rw [e]; exact radius_pos (hp part hpart v hv)
  refine ⟨rfl, fun r => ⟨decide (10 ≤ r / m.2), ?_, ?_⟩⟩
  · unfold checkSearchRadius
    exact if_neg pos.ne'
  · rw [decide_eq_true_iff, le_div_iff₀ pos]
    constructor
    · intro k part' hp' v' hv'
      have := h2.2 ⟨part', hp', v', hv', rfl⟩
      linarith
    · intro k
      rw [e]
      exact k part hpart v hv

end Verif.Sizes
