import Verif.Grid.Model

/-! # The walk over the cells (helper lemmas) -/

namespace Verif.Grid

open Verif

/-- The cell with a given id. -/
def cellAt (nx ny g : Nat) : Cell := ⟨g % nx, g / nx % ny, g / nx / ny⟩

theorem cellAt_of {nx ny i j : Nat} (k : Nat) (hi : i < nx) (hj : j < ny) :
    cellAt nx ny (i + nx * (j + ny * k)) = ⟨i, j, k⟩ := by
  have h1 : (i + nx * (j + ny * k)) / nx = j + ny * k := by
    rw [Nat.add_mul_div_left _ _ (by omega), Nat.div_eq_of_lt hi, Nat.zero_add]
  rw [cellAt, h1, Nat.add_mul_mod_self_left, Nat.mod_eq_of_lt hi, Nat.add_mul_mod_self_left,
    Nat.mod_eq_of_lt hj, Nat.add_mul_div_left _ _ (by omega : 0 < ny), Nat.div_eq_of_lt hj,
    Nat.zero_add]

theorem gid_cellAt (nx ny g : Nat) : (cellAt nx ny g).gid nx ny = g := by
  rw [Cell.gid, cellAt]
  show g % nx + g / nx % ny * nx + g / nx / ny * nx * ny = g
  have h1 := Nat.mod_add_div g nx
  have h2 := Nat.mod_add_div (g / nx) ny
  calc g % nx + g / nx % ny * nx + g / nx / ny * nx * ny
      = g % nx + nx * (g / nx % ny + ny * (g / nx / ny)) := by ring
    _ = g := by rw [h2, h1]

theorem cellAt_lt {nx ny nz g : Nat} (h : g < nx * ny * nz) :
    (cellAt nx ny g).i < nx ∧ (cellAt nx ny g).j < ny ∧ (cellAt nx ny g).k < nz := by
  have hx : 0 < nx := by
    rcases Nat.eq_zero_or_pos nx with e | e
    · subst e; simp at h
    · exact e
  have hy : 0 < ny := by
    rcases Nat.eq_zero_or_pos ny with e | e
    · subst e; simp at h
    · exact e
  refine ⟨Nat.mod_lt _ hx, Nat.mod_lt _ hy, ?_⟩
  show g / nx / ny < nz
  rw [Nat.div_div_eq_div_mul]
  exact Nat.div_lt_of_lt_mul h

theorem cellAt_gid {nx ny : Nat} {c : Cell} (hi : c.i < nx) (hj : c.j < ny) :
    cellAt nx ny (c.gid nx ny) = c := by
  have : c.gid nx ny = c.i + nx * (c.j + ny * c.k) := by rw [Cell.gid]; ring
  rw [this, cellAt_of _ hi hj]

theorem gid_inj {nx ny : Nat} {c d : Cell} (hi : c.i < nx) (hj : c.j < ny) (hi' : d.i < nx)
    (hj' : d.j < ny) (h : c.gid nx ny = d.gid nx ny) : c = d := by
  rw [← cellAt_gid hi hj, h, cellAt_gid hi' hj']

theorem rowLoop_eq (nx my j k : Nat) :
    ∀ (fuel i : Nat) (w : Walk), w.here.i = i → nx - i ≤ fuel →
      rowLoop nx my j k fuel i w =
        { cell := w.cell + min (nx - i) (my - w.cell)
          iStart := if min (nx - i) (my - w.cell) = 0 then w.iStart else 0
          jStart := w.jStart
          here := { w.here with i := i + min (nx - i) (my - w.cell) }
          out := w.out ++
            (List.range (min (nx - i) (my - w.cell))).map fun t => (⟨i + t, j, k⟩ : Cell) } := by
  intro fuel
  induction fuel with
  | zero =>
      intro i w hi hf
      have h0 : nx - i = 0 := by omega
      rw [rowLoop, h0, Nat.zero_min]
      cases w
      subst hi
      simp
  | succ f ih =>
      intro i w hi hf
      rw [rowLoop]
      by_cases hc : i < nx ∧ w.cell < my
      · rw [if_pos hc, ih (i + 1) _ (by show w.here.i + 1 = i + 1; omega) (by omega)]
        have hm : min (nx - i) (my - w.cell) = min (nx - (i + 1)) (my - (w.cell + 1)) + 1 := by omega
        rw [hm]
        simp only [Walk.mk.injEq, ite_self, true_and]
        refine ⟨by omega, by simp, by simp; omega, ?_⟩
        rw [List.append_assoc, List.range_succ_eq_map, List.map_cons, List.map_map]
        congr 1
        rw [List.singleton_append]
        congr 1
        refine List.map_congr_left fun t _ => ?_
        show (⟨i + 1 + t, j, k⟩ : Cell) = ⟨i + (t + 1), j, k⟩
        rw [show i + 1 + t = i + (t + 1) by omega]
      · rw [if_neg hc]
        have h0 : min (nx - i) (my - w.cell) = 0 := by omega
        rw [h0]
        cases w
        subst hi
        simp

/-- The cells so far are those with the next ids, and a finished walk leaves the locator at the
following cell. -/
structure Inv (nx ny my g : Nat) (w : Walk) : Prop where
  out : w.out = (List.range w.cell).map fun t => cellAt nx ny (g + t)
  le : w.cell ≤ my
  done : w.cell = my → w.here = cellAt nx ny (g + my)

/-- An unfinished walk stands at row `j` of plane `k`. -/
def AtRow (nx ny my g k j : Nat) (w : Walk) : Prop :=
  w.cell < my → w.iStart = w.here.i ∧ w.here.i < nx ∧ w.here.k = k ∧
    w.here.i + nx * (j + ny * k) = g + w.cell ∧ (j = ny → w.here.i = 0 ∧ w.jStart = 0)

theorem row_step {nx ny my g k j : Nat} {w : Walk} (hj : j < ny) (hI : Inv nx ny my g w)
    (hc : w.cell < my) (hA : AtRow nx ny my g k j w) :
    ∀ w1, w1 = rowLoop nx my j k nx w.iStart { w with jStart := 0, here := { w.here with j := j } } →
      Inv nx ny my g { w1 with here := nextRow nx ny my w1.cell w1.here } ∧
      AtRow nx ny my g k (j + 1) { w1 with here := nextRow nx ny my w1.cell w1.here } := by
  intro w1 e
  obtain ⟨h1, h2, h3, h4, _⟩ := hA hc
  rw [rowLoop_eq nx my j k nx w.iStart _ (by show w.here.i = w.iStart; exact h1.symm) (by omega)] at e
  obtain ⟨m, hm⟩ : ∃ m, m = min (nx - w.iStart) (my - w.cell) := ⟨_, rfl⟩
  rw [← hm] at e
  have hm0 : m ≠ 0 := by omega
  rw [if_neg hm0] at e
  subst e
  rw [h1] at hm ⊢
  have hout : w.out ++ (List.range m).map (fun t => (⟨w.here.i + t, j, k⟩ : Cell)) =
      (List.range (w.cell + m)).map fun t => cellAt nx ny (g + t) := by
    rw [hI.out, List.range_add, List.map_append, List.map_map]
    congr 1
    refine List.map_congr_left fun t ht => ?_
    rw [List.mem_range] at ht
    show (⟨w.here.i + t, j, k⟩ : Cell) = cellAt nx ny (g + (w.cell + t))
    rw [show g + (w.cell + t) = (w.here.i + t) + nx * (j + ny * k) by omega,
      cellAt_of k (by omega) hj]
  refine ⟨⟨hout, by show w.cell + m ≤ my; omega, ?_⟩, ?_⟩
  · intro hd
    have hd' : w.cell + m = my := hd
    show nextRow nx ny my (w.cell + m) ⟨w.here.i + m, j, w.here.k⟩ = _
    rw [nextRow]
    simp only
    rw [h3, show g + my = (w.here.i + m) + nx * (j + ny * k) by omega]
    by_cases hr : w.here.i + m = nx
    · rw [if_pos hr, if_pos hd', hr]
      by_cases hp : j + 1 = ny
      · rw [if_pos hp, show nx + nx * (j + ny * k) = 0 + nx * (0 + ny * (k + 1)) by
          rw [← hp]; ring, cellAt_of (k + 1) (by omega) (by omega)]
      · rw [if_neg hp, show nx + nx * (j + ny * k) = 0 + nx * (j + 1 + ny * k) by ring,
          cellAt_of k (by omega) (by omega)]
    · rw [if_neg hr, cellAt_of k (by omega) hj]
  · intro hd
    have hd' : w.cell + m < my := hd
    have hr : w.here.i + m = nx := by omega
    show 0 = (nextRow nx ny my (w.cell + m) ⟨w.here.i + m, j, w.here.k⟩).i ∧ _
    have hn : nextRow nx ny my (w.cell + m) ⟨w.here.i + m, j, w.here.k⟩ = ⟨0, j, w.here.k⟩ := by
      rw [nextRow]
      simp only
      rw [if_pos hr, if_neg (by omega)]
    show _ ∧ (nextRow nx ny my (w.cell + m) ⟨w.here.i + m, j, w.here.k⟩).i < nx ∧
      (nextRow nx ny my (w.cell + m) ⟨w.here.i + m, j, w.here.k⟩).k = k ∧
      (nextRow nx ny my (w.cell + m) ⟨w.here.i + m, j, w.here.k⟩).i + nx * (j + 1 + ny * k) =
        g + (w.cell + m) ∧
      (j + 1 = ny → (nextRow nx ny my (w.cell + m) ⟨w.here.i + m, j, w.here.k⟩).i = 0 ∧ 0 = 0)
    rw [hn]
    refine ⟨rfl, by show 0 < nx; omega, h3, ?_, fun _ => ⟨rfl, rfl⟩⟩
    show 0 + nx * (j + 1 + ny * k) = g + (w.cell + m)
    have : nx * (j + 1 + ny * k) = nx + nx * (j + ny * k) := by ring
    omega

theorem planeLoop_inv {nx ny my g k : Nat} :
    ∀ (fuel j : Nat) (w : Walk), ny - j ≤ fuel → j ≤ ny → Inv nx ny my g w → AtRow nx ny my g k j w →
      Inv nx ny my g (planeLoop nx ny my k fuel j w) ∧
      AtRow nx ny my g k ny (planeLoop nx ny my k fuel j w) := by
  intro fuel
  induction fuel with
  | zero =>
      intro j w hf hj hI hA
      rw [planeLoop]
      have : j = ny := by omega
      subst this
      exact ⟨hI, hA⟩
  | succ f ih =>
      intro j w hf hj hI hA
      rw [planeLoop]
      by_cases hc : j < ny ∧ w.cell < my
      · rw [if_pos hc]
        obtain ⟨hI', hA'⟩ := row_step hc.1 hI hc.2 hA _ rfl
        exact ih (j + 1) _ (by omega) (by omega) hI' hA'
      · rw [if_neg hc]
        refine ⟨hI, ?_⟩
        intro hcell
        have : j = ny := by
          by_contra hne
          exact hc ⟨by omega, hcell⟩
        subst this
        exact hA hcell

theorem bodyLoop_inv {nx ny nz my g : Nat} (hx : 0 < nx) (hy : 0 < ny) (hb : g + my ≤ nx * ny * nz) :
    ∀ (fuel k : Nat) (w : Walk), nz - k ≤ fuel → k ≤ nz → Inv nx ny my g w →
      (w.cell < my → w.iStart = w.here.i ∧ w.here.i < nx ∧ w.jStart < ny ∧
        w.here.i + nx * (w.jStart + ny * k) = g + w.cell) →
      Inv nx ny my g (bodyLoop nx ny nz my fuel k w) ∧
      (bodyLoop nx ny nz my fuel k w).cell = my := by
  intro fuel
  induction fuel with
  | zero =>
      intro k w hf hk hI hA
      rw [bodyLoop]
      refine ⟨hI, ?_⟩
      by_contra hne
      have hlt : w.cell < my := lt_of_le_of_ne hI.le hne
      obtain ⟨_, _, _, h⟩ := hA hlt
      have hkz : k = nz := by omega
      subst hkz
      have : nx * ny * k ≤ nx * (w.jStart + ny * k) := by
        rw [Nat.mul_assoc]
        exact Nat.mul_le_mul_left _ (by omega)
      omega
  | succ f ih =>
      intro k w hf hk hI hA
      rw [bodyLoop]
      by_cases hc : k < nz ∧ w.cell < my
      · rw [if_pos hc]
        obtain ⟨h1, h2, h3, h4⟩ := hA hc.2
        have hI' : Inv nx ny my g { w with here := { w.here with k := k } } := by
          refine ⟨hI.out, hI.le, ?_⟩
          intro hd
          have : w.cell = my := hd
          omega
        have hA' : AtRow nx ny my g k w.jStart { w with here := { w.here with k := k } } :=
          fun _ => ⟨h1, h2, rfl, h4, fun e => absurd e (by omega)⟩
        obtain ⟨hI2, hA2⟩ := planeLoop_inv ny w.jStart _ (by omega) (by omega) hI' hA'
        refine ih (k + 1) _ (by omega) (by omega) hI2 ?_
        intro hcell
        obtain ⟨a1, a2, a3, a4, a5⟩ := hA2 hcell
        obtain ⟨b1, b2⟩ := a5 rfl
        refine ⟨a1, a2, by rw [b2]; exact hy, ?_⟩
        rw [b2, ← a4]
        ring
      · rw [if_neg hc]
        refine ⟨hI, ?_⟩
        by_contra hne
        have hlt : w.cell < my := lt_of_le_of_ne hI.le hne
        obtain ⟨_, _, _, h⟩ := hA hlt
        have hkz : k = nz := by
          by_contra hk'
          exact hc ⟨by omega, hlt⟩
        subst hkz
        have : nx * ny * k ≤ nx * (w.jStart + ny * k) := by
          rw [Nat.mul_assoc]
          exact Nat.mul_le_mul_left _ (by omega)
        omega

/-- The walk of a processor visits the cells with the next `my` ids, in order, and leaves the locator
at the following one. -/
theorem walk_eq {nx ny nz my g : Nat} (hb : g + my ≤ nx * ny * nz) :
    (walk nx ny nz my (cellAt nx ny g)).out = (List.range my).map (fun t => cellAt nx ny (g + t)) ∧
    (walk nx ny nz my (cellAt nx ny g)).here = cellAt nx ny (g + my) := by
  rcases Nat.eq_zero_or_pos my with e | hpos
  · subst e
    have h : ∀ fuel k (w : Walk), bodyLoop nx ny nz 0 fuel k w = w := by
      intro fuel
      cases fuel with
      | zero => intros; rfl
      | succ f => intro k w; rw [bodyLoop, if_neg (by omega)]
    rw [walk, h]
    exact ⟨rfl, rfl⟩
  · have htot : 0 < nx * ny * nz := by omega
    have hx : 0 < nx := by
      rcases Nat.eq_zero_or_pos nx with e | e
      · subst e; simp at htot
      · exact e
    have hy : 0 < ny := by
      rcases Nat.eq_zero_or_pos ny with e | e
      · subst e; simp at htot
      · exact e
    obtain ⟨hi, hj, hk⟩ := cellAt_lt (show g < nx * ny * nz by omega)
    have hpos' : (cellAt nx ny g).i + nx * ((cellAt nx ny g).j + ny * (cellAt nx ny g).k) = g := by
      have := gid_cellAt nx ny g
      rw [Cell.gid] at this
      calc _ = (cellAt nx ny g).i + (cellAt nx ny g).j * nx + (cellAt nx ny g).k * nx * ny := by ring
        _ = g := this
    have hb' := bodyLoop_inv hx hy hb nz (cellAt nx ny g).k
      { cell := 0, iStart := (cellAt nx ny g).i, jStart := (cellAt nx ny g).j, here := cellAt nx ny g,
        out := [] } (by omega) (by omega)
      ⟨rfl, by show 0 ≤ my; omega, fun h => absurd h (by show ¬ 0 = my; omega)⟩
      (fun _ => ⟨rfl, hi, hj, hpos'⟩)
    obtain ⟨hI, hcell⟩ := hb'
    refine ⟨?_, hI.done hcell⟩
    have := hI.out
    rw [hcell] at this
    exact this

end Verif.Grid
