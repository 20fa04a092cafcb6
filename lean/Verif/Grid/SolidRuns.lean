import Verif.Grid.SolidLemmas
import Verif.Grid.CylinderLemmas

/-! # The processors of a solid cylinder (helper lemmas) -/

namespace Verif.Grid

open Verif Verif.Mech

theorem solid_total (G : SolidGenerator) : G.nx * G.ny * G.nz + G.nz = G.total := by
  rw [SolidGenerator.total]
  ring

/-- What is known of the data of one processor. -/
structure SolidShare (G : SolidGenerator) (d : SolidData) : Prop where
  global : d.globalNumPoints = G.total
  points : d.gids.length = d.numPoints
  x : d.x = d.gids.map fun g => G.point (placeAt G.nx G.ny g)
  volume : d.volume = d.gids.map fun g => G.volume (placeAt G.nx G.ny g)

theorem solid_compute {G : SolidGenerator} {my g : Nat} (hx : 0 < G.nx) (hy : 0 < G.ny) (hb : g + my ≤ G.total)
    (hg : g % (G.nx * G.ny + 1) ≠ 1) :
    (G.compute my (locatorAt G.nx G.ny g)).2.gids = List.range' g my ∧
    SolidShare G (G.compute my (locatorAt G.nx G.ny g)).2 := by
  obtain ⟨h1, _, _⟩ := solidWalk_eq hx hy hb hg
  have e : (G.compute my (locatorAt G.nx G.ny g)).2.gids = List.range' g my := by
    show (solidWalk G.nx G.ny G.nz my (locatorAt G.nx G.ny g)).out.map (Place.gid G.nx G.ny) = _
    rw [h1, List.map_map, List.range'_eq_map_range]
    exact List.map_congr_left fun t _ => gid_placeAt _ _ _
  refine ⟨e, solid_total G, ?_, ?_, ?_⟩
  · rw [e]
    exact List.length_range'
  · rw [e]
    show (solidWalk G.nx G.ny G.nz my (locatorAt G.nx G.ny g)).out.map G.point = _
    rw [h1, List.map_map, List.range'_eq_map_range, List.map_map]
    rfl
  · rw [e]
    show (solidWalk G.nx G.ny G.nz my (locatorAt G.nx G.ny g)).out.map G.volume = _
    rw [h1, List.map_map, List.range'_eq_map_range, List.map_map]
    rfl

theorem solid_good {G : SolidGenerator} (hx : 0 < G.nx) (hy : 0 < G.ny) (s b : Nat) :
    ∀ (r g : Nat), g + r * s + b ≤ G.total → (∀ m, m ≤ r → (g + m * s) % (G.nx * G.ny + 1) ≠ 1) →
      ((G.iterate (List.replicate r s ++ [b]) (locatorAt G.nx G.ny g)).map SolidData.gids).flatten =
        List.range' g (r * s + b) ∧
      ∀ d ∈ G.iterate (List.replicate r s ++ [b]) (locatorAt G.nx G.ny g), SolidShare G d := by
  intro r
  induction r with
  | zero =>
      intro g hb hg
      obtain ⟨h1, h2⟩ := solid_compute (my := b) (g := g) hx hy (by omega) (by simpa using hg 0 (by omega))
      rw [List.replicate_zero, List.nil_append]
      refine ⟨?_, ?_⟩
      · show ([(G.compute b (locatorAt G.nx G.ny g)).2].map SolidData.gids).flatten = _
        rw [List.map_singleton, List.flatten_singleton, h1, Nat.zero_mul, Nat.zero_add]
      · intro d hd
        have : d = (G.compute b (locatorAt G.nx G.ny g)).2 := List.mem_singleton.1 hd
        rw [this]
        exact h2
  | succ r ih =>
      intro g hb hg
      have hs : (r + 1) * s = r * s + s := by ring
      rw [hs] at hb
      have hg0 : g % (G.nx * G.ny + 1) ≠ 1 := by simpa using hg 0 (by omega)
      have hg1 : (g + s) % (G.nx * G.ny + 1) ≠ 1 := by simpa using hg 1 (by omega)
      obtain ⟨h1, h2⟩ := solid_compute (my := s) hx hy (by omega) hg0
      obtain ⟨_, w2, _⟩ := solidWalk_eq (nz := G.nz) (my := s) hx hy (by show g + s ≤ G.total; omega) hg0
      have hnext : (G.compute s (locatorAt G.nx G.ny g)).1 = locatorAt G.nx G.ny (g + s) := w2 hg1
      obtain ⟨i1, i2⟩ := ih (g + s) (by omega) (fun m hm => by
        have := hg (m + 1) (by omega)
        rwa [show g + (m + 1) * s = g + s + m * s by ring] at this)
      rw [List.replicate_succ, List.cons_append]
      have hstep : G.iterate (s :: (List.replicate r s ++ [b])) (locatorAt G.nx G.ny g) =
          (G.compute s (locatorAt G.nx G.ny g)).2 ::
            G.iterate (List.replicate r s ++ [b]) (locatorAt G.nx G.ny (g + s)) := by
        rw [← hnext]
        rfl
      rw [hstep]
      refine ⟨?_, ?_⟩
      · rw [List.map_cons, List.flatten_cons, h1, i1, List.range'_append_1]
        congr 1
        rw [hs]
        omega
      · intro d hd
        rcases List.mem_cons.1 hd with e | e
        · rw [e]; exact h2
        · exact i2 d e

theorem solid_bad {G : SolidGenerator} (hx : 0 < G.nx) (hy : 0 < G.ny) {s b : Nat} (hs0 : 0 < s) (hb0 : 0 < b) :
    ∀ (r g : Nat), g + r * s + b = G.total → g % (G.nx * G.ny + 1) ≠ 1 →
      (∃ m, 0 < m ∧ m ≤ r ∧ (g + m * s) % (G.nx * G.ny + 1) = 1) →
      ((G.iterate (List.replicate r s ++ [b]) (locatorAt G.nx G.ny g)).map SolidData.gids).flatten ≠
        List.range' g (r * s + b) := by
  intro r
  induction r with
  | zero =>
      rintro g _ _ ⟨m, h1, h2, _⟩
      omega
  | succ r ih =>
      rintro g hb hg0 ⟨m, hm0, hm, hmod⟩
      have hs : (r + 1) * s = r * s + s := by ring
      rw [hs] at hb
      obtain ⟨h1, _⟩ := solid_compute (my := s) hx hy (by omega) hg0
      obtain ⟨_, w2, w3⟩ := solidWalk_eq (nz := G.nz) (my := s) hx hy (by show g + s ≤ G.total; omega) hg0
      rw [List.replicate_succ, List.cons_append]
      by_cases hg1 : (g + s) % (G.nx * G.ny + 1) = 1
      · obtain ⟨j, hj, hh⟩ := w3 hg1
        have hnext : (G.compute s (locatorAt G.nx G.ny g)).1 = ⟨0, j, (g + s) / (G.nx * G.ny + 1)⟩ := hh
        have hdm := Nat.mod_add_div (g + s) (G.nx * G.ny + 1)
        rw [hg1] at hdm
        have hk : (g + s) / (G.nx * G.ny + 1) < G.nz := by
          apply Nat.div_lt_of_lt_mul
          have : g + s < G.total := by omega
          exact this
        obtain ⟨c, cs, hcs⟩ : ∃ c cs, List.replicate r s ++ [b] = c :: cs ∧ 0 < c := by
          cases r with
          | zero => exact ⟨b, [], rfl, hb0⟩
          | succ r => exact ⟨s, List.replicate r s ++ [b], by rw [List.replicate_succ, List.cons_append], hs0⟩
        obtain ⟨l, hl⟩ := solidWalk_first (nx := G.nx) hx hj hk hcs.2
        rw [hcs.1]
        have hstep : G.iterate (s :: c :: cs) (locatorAt G.nx G.ny g) =
            (G.compute s (locatorAt G.nx G.ny g)).2 :: (G.compute c ⟨0, j, (g + s) / (G.nx * G.ny + 1)⟩).2 ::
              G.iterate cs (G.compute c ⟨0, j, (g + s) / (G.nx * G.ny + 1)⟩).1 := by
          rw [← hnext]
          rfl
        have hgids : (G.compute c ⟨0, j, (g + s) / (G.nx * G.ny + 1)⟩).2.gids =
            (solidWalk G.nx G.ny G.nz c ⟨0, j, (g + s) / (G.nx * G.ny + 1)⟩).out.map (Place.gid G.nx G.ny) := rfl
        rw [hstep, List.map_cons, List.map_cons, List.flatten_cons, List.flatten_cons, h1, hgids, hl]
        intro e
        have e2 : List.range' g ((r + 1) * s + b) = List.range' g s ++ List.range' (g + s) (r * s + b) := by
          rw [List.range'_append_1, hs]
          congr 1
          omega
        rw [e2] at e
        have e3 := List.append_cancel_left e
        obtain ⟨q, hq⟩ : ∃ q, r * s + b = q + 1 := ⟨r * s + b - 1, by omega⟩
        rw [hq, List.range'_succ, List.map_cons, List.cons_append] at e3
        have e4 := (List.cons.inj e3).1
        by_cases h0 : j = 0
        · rw [if_pos h0, Place.gid, Nat.mul_comm] at e4
          omega
        · rw [if_neg h0] at e4
          have e5 : 1 + 0 + j * G.nx + (g + s) / (G.nx * G.ny + 1) * (G.nx * G.ny + 1) = g + s := e4
          rw [Nat.mul_comm ((g + s) / (G.nx * G.ny + 1))] at e5
          have : 0 < j * G.nx := Nat.mul_pos (by omega) hx
          omega
      · have hnext : (G.compute s (locatorAt G.nx G.ny g)).1 = locatorAt G.nx G.ny (g + s) := w2 hg1
        have hstep : G.iterate (s :: (List.replicate r s ++ [b])) (locatorAt G.nx G.ny g) =
            (G.compute s (locatorAt G.nx G.ny g)).2 ::
              G.iterate (List.replicate r s ++ [b]) (locatorAt G.nx G.ny (g + s)) := by
          rw [← hnext]
          rfl
        have hm1 : m ≠ 1 := by
          intro e
          rw [e, Nat.one_mul] at hmod
          exact hg1 hmod
        have := ih (g + s) (by omega) hg1 ⟨m - 1, by omega, by omega, by
          obtain ⟨q, rfl⟩ : ∃ q, m = q + 1 := ⟨m - 1, by omega⟩
          rw [Nat.add_sub_cancel, show g + s + q * s = g + (q + 1) * s by ring]
          exact hmod⟩
        rw [hstep, List.map_cons, List.flatten_cons, h1]
        intro e
        have e2 : List.range' g ((r + 1) * s + b) = List.range' g s ++ List.range' (g + s) (r * s + b) := by
          rw [List.range'_append_1, hs]
          congr 1
          omega
        rw [e2] at e
        exact this (List.append_cancel_left e)

theorem solid_data {G : SolidGenerator} {procs : Nat} {ds : List SolidData} (h : G.data procs = .ok ds) :
    procs ≠ 0 ∧ ds = G.iterate (List.replicate (procs - 1) (G.total / procs) ++ [G.total / procs + G.total % procs])
      (locatorAt G.nx G.ny 0) := by
  rw [SolidGenerator.data] at h
  obtain ⟨counts, hc, hd⟩ := Outcome.bind_eq_ok.1 h
  have hp : procs ≠ 0 := by
    intro e
    rw [cellsPerProc, if_pos e] at hc
    exact absurd hc (by simp)
  rw [cellsPerProc_ok hp] at hc
  have e1 := Outcome.ok.inj hc
  have e2 := Outcome.ok.inj hd
  refine ⟨hp, ?_⟩
  rw [← e2, ← e1, show locatorAt G.nx G.ny 0 = ⟨0, 0, 0⟩ by simp [locatorAt]]

theorem share_sum {total procs : Nat} (hp : procs ≠ 0) :
    (procs - 1) * (total / procs) + (total / procs + total % procs) = total := by
  obtain ⟨p, rfl⟩ : ∃ p, procs = p + 1 := ⟨procs - 1, by omega⟩
  have := Nat.div_add_mod total (p + 1)
  rw [Nat.add_sub_cancel]
  calc p * (total / (p + 1)) + (total / (p + 1) + total % (p + 1))
      = (p + 1) * (total / (p + 1)) + total % (p + 1) := by ring
    _ = total := this

end Verif.Grid
