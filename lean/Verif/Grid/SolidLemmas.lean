import Verif.Grid.SolidModel
import Verif.Grid.Walk

/-! # The walk over the cells of a solid cylinder (helper lemmas) -/

namespace Verif.Grid

open Verif

/-- The cell with a given id. -/
def placeAt (nx ny g : Nat) : Place :=
  if g % (nx * ny + 1) = 0 then .core (g / (nx * ny + 1))
  else .ring ⟨(g % (nx * ny + 1) - 1) % nx, (g % (nx * ny + 1) - 1) / nx, g / (nx * ny + 1)⟩

/-- The locator of a cell. -/
def locatorAt (nx ny g : Nat) : Cell :=
  ⟨(g % (nx * ny + 1) - 1) % nx, (g % (nx * ny + 1) - 1) / nx, g / (nx * ny + 1)⟩

theorem in_layer {nx ny i j : Nat} (hi : i < nx) (hj : j < ny) : i + nx * j < nx * ny := by
  have : nx * (j + 1) ≤ nx * ny := Nat.mul_le_mul_left _ hj
  rw [Nat.mul_succ] at this
  omega

theorem layer_parts {nx ny i j : Nat} (k : Nat) (hi : i < nx) (hj : j < ny) :
    (1 + i + nx * j + (nx * ny + 1) * k) % (nx * ny + 1) = 1 + i + nx * j ∧
    (1 + i + nx * j + (nx * ny + 1) * k) / (nx * ny + 1) = k := by
  have h := in_layer hi hj
  refine ⟨?_, ?_⟩
  · rw [Nat.add_mul_mod_self_left, Nat.mod_eq_of_lt (by omega)]
  · rw [Nat.add_mul_div_left _ _ (by omega), Nat.div_eq_of_lt (by omega), Nat.zero_add]

theorem row_parts {nx i : Nat} (j : Nat) (hi : i < nx) : (i + nx * j) % nx = i ∧ (i + nx * j) / nx = j := by
  refine ⟨?_, ?_⟩
  · rw [Nat.add_mul_mod_self_left, Nat.mod_eq_of_lt hi]
  · rw [Nat.add_mul_div_left _ _ (by omega), Nat.div_eq_of_lt hi, Nat.zero_add]

theorem placeAt_ring {nx ny i j : Nat} (k : Nat) (hi : i < nx) (hj : j < ny) :
    placeAt nx ny (1 + i + nx * j + (nx * ny + 1) * k) = .ring ⟨i, j, k⟩ := by
  obtain ⟨h1, h2⟩ := layer_parts k hi hj
  obtain ⟨h3, h4⟩ := row_parts j hi
  rw [placeAt, h1, h2, if_neg (by omega), show 1 + i + nx * j - 1 = i + nx * j by omega, h3, h4]

theorem placeAt_core (nx ny k : Nat) : placeAt nx ny ((nx * ny + 1) * k) = .core k := by
  rw [placeAt, Nat.mul_mod_right, if_pos rfl, Nat.mul_div_cancel_left _ (by omega)]

theorem locatorAt_ring {nx ny i j : Nat} (k : Nat) (hi : i < nx) (hj : j < ny) :
    locatorAt nx ny (1 + i + nx * j + (nx * ny + 1) * k) = ⟨i, j, k⟩ := by
  obtain ⟨h1, h2⟩ := layer_parts k hi hj
  obtain ⟨h3, h4⟩ := row_parts j hi
  rw [locatorAt, h1, h2, show 1 + i + nx * j - 1 = i + nx * j by omega, h3, h4]

theorem locatorAt_core (nx ny k : Nat) : locatorAt nx ny ((nx * ny + 1) * k) = ⟨0, 0, k⟩ := by
  rw [locatorAt, Nat.mul_mod_right, Nat.mul_div_cancel_left _ (by omega)]
  simp

theorem gid_placeAt (nx ny g : Nat) : (placeAt nx ny g).gid nx ny = g := by
  have h1 := Nat.mod_add_div g (nx * ny + 1)
  rw [placeAt]
  split_ifs with h
  · rw [Place.gid, Nat.mul_comm]
    omega
  · have h2 := Nat.mod_add_div (g % (nx * ny + 1) - 1) nx
    show 1 + (g % (nx * ny + 1) - 1) % nx + (g % (nx * ny + 1) - 1) / nx * nx + g / (nx * ny + 1) * (nx * ny + 1) = g
    rw [Nat.mul_comm (g / (nx * ny + 1)), Nat.mul_comm ((g % (nx * ny + 1) - 1) / nx)]
    omega

theorem solidRow_eq (nx my j k : Nat) :
    ∀ (fuel i : Nat) (w : SolidWalk), w.here.i = i → nx - i ≤ fuel →
      solidRow nx my j k fuel i w =
        { cell := w.cell + min (nx - i) (my - w.cell)
          iStart := if min (nx - i) (my - w.cell) = 0 then w.iStart else 0
          jStart := w.jStart
          here := { w.here with i := i + min (nx - i) (my - w.cell) }
          out := w.out ++
            (List.range (min (nx - i) (my - w.cell))).map fun t => Place.ring ⟨i + t, j, k⟩ } := by
  intro fuel
  induction fuel with
  | zero =>
      intro i w hi hf
      have h0 : nx - i = 0 := by omega
      rw [solidRow, h0, Nat.zero_min]
      cases w
      subst hi
      simp
  | succ f ih =>
      intro i w hi hf
      rw [solidRow]
      by_cases hc : i < nx ∧ w.cell < my
      · rw [if_pos hc, ih (i + 1) _ (by show w.here.i + 1 = i + 1; omega) (by omega)]
        have hm : min (nx - i) (my - w.cell) = min (nx - (i + 1)) (my - (w.cell + 1)) + 1 := by omega
        rw [hm]
        simp only [SolidWalk.mk.injEq, ite_self, true_and]
        refine ⟨by omega, by simp, by simp; omega, ?_⟩
        rw [List.append_assoc, List.range_succ_eq_map, List.map_cons, List.map_map]
        congr 1
        rw [List.singleton_append]
        congr 1
        refine List.map_congr_left fun t _ => ?_
        show Place.ring ⟨i + 1 + t, j, k⟩ = Place.ring ⟨i + (t + 1), j, k⟩
        rw [show i + 1 + t = i + (t + 1) by omega]
      · rw [if_neg hc]
        have h0 : min (nx - i) (my - w.cell) = 0 := by omega
        rw [h0]
        cases w
        subst hi
        simp

/-- The cells so far are those with the next ids, and a finished walk that does not end at a core leaves the locator at the
following cell; one that ends at a core leaves it at the beginning of a row of the same layer. -/
structure SolidInv (nx ny my g : Nat) (w : SolidWalk) : Prop where
  out : w.out = (List.range w.cell).map fun t => placeAt nx ny (g + t)
  le : w.cell ≤ my
  done : w.cell = my → (g + my) % (nx * ny + 1) ≠ 1 → w.here = locatorAt nx ny (g + my)
  core : w.cell = my → (g + my) % (nx * ny + 1) = 1 →
    w.here.i = 0 ∧ w.here.j < ny ∧ w.here.k = (g + my) / (nx * ny + 1)

/-- An unfinished walk stands at row `j` of layer `k`. -/
def AtSolidRow (nx ny my g k j : Nat) (w : SolidWalk) : Prop :=
  w.cell < my → w.iStart = w.here.i ∧ w.here.i < nx ∧ w.here.j < ny ∧ w.here.k = k ∧
    1 + w.here.i + nx * j + (nx * ny + 1) * k = g + w.cell ∧ (j = ny → w.here.i = 0 ∧ w.jStart = 0)

theorem solidRow_step {nx ny my g k j : Nat} {w : SolidWalk} (hj : j < ny) (hI : SolidInv nx ny my g w)
    (hc : w.cell < my) (hA : AtSolidRow nx ny my g k j w) :
    ∀ w1, w1 = solidRow nx my j k nx w.iStart { w with jStart := 0, here := { w.here with j := j } } →
      SolidInv nx ny my g { w1 with here := nextRow nx ny my w1.cell w1.here } ∧
      AtSolidRow nx ny my g k (j + 1) { w1 with here := nextRow nx ny my w1.cell w1.here } := by
  intro w1 e
  obtain ⟨h1, h2, _, h3, h4, _⟩ := hA hc
  rw [solidRow_eq nx my j k nx w.iStart _ (by show w.here.i = w.iStart; exact h1.symm) (by omega)] at e
  obtain ⟨m, hm⟩ : ∃ m, m = min (nx - w.iStart) (my - w.cell) := ⟨_, rfl⟩
  rw [← hm] at e
  have hm0 : m ≠ 0 := by omega
  rw [if_neg hm0] at e
  subst e
  rw [h1] at hm ⊢
  have hout : w.out ++ (List.range m).map (fun t => Place.ring ⟨w.here.i + t, j, k⟩) =
      (List.range (w.cell + m)).map fun t => placeAt nx ny (g + t) := by
    rw [hI.out, List.range_add, List.map_append, List.map_map]
    congr 1
    refine List.map_congr_left fun t ht => ?_
    rw [List.mem_range] at ht
    show Place.ring ⟨w.here.i + t, j, k⟩ = placeAt nx ny (g + (w.cell + t))
    rw [show g + (w.cell + t) = 1 + (w.here.i + t) + nx * j + (nx * ny + 1) * k by omega,
      placeAt_ring k (by omega) hj]
  have hnext : w.cell + m = my →
      nextRow nx ny my (w.cell + m) ⟨w.here.i + m, j, w.here.k⟩ = locatorAt nx ny (g + my) := by
    intro hd'
    rw [nextRow]
    simp only
    rw [h3, show g + my = 1 + (w.here.i + m) + nx * j + (nx * ny + 1) * k by omega]
    by_cases hr : w.here.i + m = nx
    · rw [if_pos hr, if_pos hd', hr]
      by_cases hp : j + 1 = ny
      · rw [if_pos hp, show 1 + nx + nx * j + (nx * ny + 1) * k = (nx * ny + 1) * (k + 1) by
          rw [← hp]; ring, locatorAt_core]
      · rw [if_neg hp, show 1 + nx + nx * j + (nx * ny + 1) * k = 1 + 0 + nx * (j + 1) + (nx * ny + 1) * k by ring,
          locatorAt_ring k (by omega) (by omega)]
    · rw [if_neg hr, locatorAt_ring k (by omega) hj]
  have hnot : w.cell + m = my → (g + my) % (nx * ny + 1) ≠ 1 := by
    intro hd' h
    rw [show g + my = 1 + (w.here.i + m) + nx * j + (nx * ny + 1) * k by omega, Nat.add_mul_mod_self_left] at h
    have hle : nx * (j + 1) ≤ nx * ny := Nat.mul_le_mul_left _ hj
    rw [Nat.mul_succ] at hle
    rcases Nat.lt_or_ge (1 + (w.here.i + m) + nx * j) (nx * ny + 1) with h' | h'
    · rw [Nat.mod_eq_of_lt h'] at h
      omega
    · rw [show 1 + (w.here.i + m) + nx * j = nx * ny + 1 by omega, Nat.mod_self] at h
      omega
  refine ⟨⟨hout, by show w.cell + m ≤ my; omega, fun hd _ => hnext hd, fun hd h => absurd h (hnot hd)⟩, ?_⟩
  intro hd
  have hd' : w.cell + m < my := hd
  have hr : w.here.i + m = nx := by omega
  have hn : nextRow nx ny my (w.cell + m) ⟨w.here.i + m, j, w.here.k⟩ = ⟨0, j, w.here.k⟩ := by
    rw [nextRow]
    simp only
    rw [if_pos hr, if_neg (by omega)]
  show 0 = (nextRow nx ny my (w.cell + m) ⟨w.here.i + m, j, w.here.k⟩).i ∧
    (nextRow nx ny my (w.cell + m) ⟨w.here.i + m, j, w.here.k⟩).i < nx ∧
    (nextRow nx ny my (w.cell + m) ⟨w.here.i + m, j, w.here.k⟩).j < ny ∧
    (nextRow nx ny my (w.cell + m) ⟨w.here.i + m, j, w.here.k⟩).k = k ∧
    1 + (nextRow nx ny my (w.cell + m) ⟨w.here.i + m, j, w.here.k⟩).i + nx * (j + 1) + (nx * ny + 1) * k =
      g + (w.cell + m) ∧
    (j + 1 = ny → (nextRow nx ny my (w.cell + m) ⟨w.here.i + m, j, w.here.k⟩).i = 0 ∧ 0 = 0)
  rw [hn]
  refine ⟨rfl, by show 0 < nx; omega, hj, h3, ?_, fun _ => ⟨rfl, rfl⟩⟩
  show 1 + 0 + nx * (j + 1) + (nx * ny + 1) * k = g + (w.cell + m)
  rw [Nat.mul_succ]
  omega

theorem solidPlane_inv {nx ny my g k : Nat} :
    ∀ (fuel j : Nat) (w : SolidWalk), ny - j ≤ fuel → j ≤ ny → SolidInv nx ny my g w → AtSolidRow nx ny my g k j w →
      SolidInv nx ny my g (solidPlane nx ny my k fuel j w) ∧
      AtSolidRow nx ny my g k ny (solidPlane nx ny my k fuel j w) := by
  intro fuel
  induction fuel with
  | zero =>
      intro j w hf hj hI hA
      rw [solidPlane]
      have : j = ny := by omega
      subst this
      exact ⟨hI, hA⟩
  | succ f ih =>
      intro j w hf hj hI hA
      rw [solidPlane]
      by_cases hc : j < ny ∧ w.cell < my
      · rw [if_pos hc]
        obtain ⟨hI', hA'⟩ := solidRow_step hc.1 hI hc.2 hA _ rfl
        exact ih (j + 1) _ (by omega) (by omega) hI' hA'
      · rw [if_neg hc]
        refine ⟨hI, ?_⟩
        intro hcell
        have : j = ny := by
          by_contra hne
          exact hc ⟨by omega, hcell⟩
        subst this
        exact hA hcell

/-- Where an unfinished walk stands at the beginning of the loop over layers: at a core, or within a layer. -/
def AtLayer (nx ny my g k : Nat) (w : SolidWalk) : Prop :=
  w.cell < my → w.iStart = w.here.i ∧ w.here.i < nx ∧ w.here.j < ny ∧ w.jStart < ny ∧
    ((w.jStart = 0 ∧ w.iStart = 0 ∧ (nx * ny + 1) * k = g + w.cell) ∨
      (¬ (w.jStart = 0 ∧ w.iStart = 0) ∧ 1 + w.here.i + nx * w.jStart + (nx * ny + 1) * k = g + w.cell))

theorem solidCore_step {nx ny my g k : Nat} {w : SolidWalk} (hx : 0 < nx) (hy : 0 < ny) (hI : SolidInv nx ny my g w)
    (hc : w.cell < my) (hA : AtLayer nx ny my g k w) :
    ∀ w1, w1 = solidCore k { w with here := { w.here with k := k } } →
      SolidInv nx ny my g w1 ∧ AtSolidRow nx ny my g k w1.jStart w1 ∧ w1.jStart < ny := by
  intro w1 e
  obtain ⟨h1, h2, h3, h5, h4⟩ := hA hc
  rcases h4 with ⟨hj, hi, hg⟩ | ⟨hn, hg⟩
  · rw [solidCore, if_pos ⟨hj, hi⟩] at e
    subst e
    have h6 : w.here.i = 0 := by omega
    have h7 : g + (w.cell + 1) = 1 + 0 + nx * 0 + (nx * ny + 1) * k := by omega
    obtain ⟨m1, m2⟩ := layer_parts k hx hy
    refine ⟨⟨?_, by show w.cell + 1 ≤ my; omega, ?_, ?_⟩, ?_, by show w.jStart < ny; omega⟩
    · show w.out ++ [Place.core k] = (List.range (w.cell + 1)).map fun t => placeAt nx ny (g + t)
      rw [hI.out, List.range_succ, List.map_append, List.map_singleton, ← hg, placeAt_core]
    · intro hd hne
      have hd' : w.cell + 1 = my := hd
      rw [← hd', h7, m1] at hne
      exact absurd rfl hne
    · intro hd _
      have hd' : w.cell + 1 = my := hd
      refine ⟨h6, h3, ?_⟩
      show k = (g + my) / (nx * ny + 1)
      rw [← hd', h7, m2]
    · intro hd
      have hd' : w.cell + 1 < my := hd
      refine ⟨h1, h2, h3, rfl, ?_, fun e => ?_⟩
      · show 1 + w.here.i + nx * w.jStart + (nx * ny + 1) * k = g + (w.cell + 1)
        rw [h6, hj]
        omega
      · have : w.jStart = ny := e
        omega
  · rw [solidCore, if_neg hn] at e
    subst e
    refine ⟨⟨hI.out, hI.le, fun hd => ?_, fun hd => ?_⟩, fun _ => ⟨h1, h2, h3, rfl, hg, fun e => ?_⟩, h5⟩
    · have : w.cell = my := hd
      omega
    · have : w.cell = my := hd
      omega
    · have : w.jStart = ny := e
      omega

theorem solidBody_inv {nx ny nz my g : Nat} (hx : 0 < nx) (hy : 0 < ny) (hb : g + my ≤ (nx * ny + 1) * nz) :
    ∀ (fuel k : Nat) (w : SolidWalk), nz - k ≤ fuel → k ≤ nz → SolidInv nx ny my g w → AtLayer nx ny my g k w →
      SolidInv nx ny my g (solidBody nx ny nz my fuel k w) ∧
      (solidBody nx ny nz my fuel k w).cell = my := by
  have hend : ∀ (k : Nat) (w : SolidWalk), ¬ k < nz → k ≤ nz → SolidInv nx ny my g w → AtLayer nx ny my g k w →
      w.cell = my := by
    intro k w hk hk' hI hA
    by_contra hne
    have hlt : w.cell < my := lt_of_le_of_ne hI.le hne
    obtain ⟨_, _, _, _, h⟩ := hA hlt
    have hkz : k = nz := by omega
    subst hkz
    rcases h with ⟨_, _, h⟩ | ⟨_, h⟩ <;> omega
  intro fuel
  induction fuel with
  | zero =>
      intro k w hf hk hI hA
      rw [solidBody]
      exact ⟨hI, hend k w (by omega) hk hI hA⟩
  | succ f ih =>
      intro k w hf hk hI hA
      rw [solidBody]
      by_cases hc : k < nz ∧ w.cell < my
      · rw [if_pos hc]
        obtain ⟨hI', hA', hj'⟩ := solidCore_step hx hy hI hc.2 hA _ rfl
        obtain ⟨hI2, hA2⟩ := solidPlane_inv ny _ _ (by omega) (by omega) hI' hA'
        refine ih (k + 1) _ (by omega) (by omega) hI2 ?_
        intro hcell
        obtain ⟨a1, a2, a3, a4, a5, a6⟩ := hA2 hcell
        obtain ⟨b1, b2⟩ := a6 rfl
        refine ⟨a1, a2, a3, by rw [b2]; exact hy, Or.inl ⟨b2, by rw [a1, b1], ?_⟩⟩
        rw [← a5, b1]
        ring
      · rw [if_neg hc]
        refine ⟨hI, ?_⟩
        by_cases hk' : k < nz
        · have : ¬ w.cell < my := fun h => hc ⟨hk', h⟩
          have := hI.le
          omega
        · exact hend k w hk' hk hI hA

theorem solidBody_zero (nx ny nz : Nat) : ∀ fuel k (w : SolidWalk), w.cell = 0 → solidBody nx ny nz 0 fuel k w = w := by
  intro fuel
  cases fuel with
  | zero => intros; rfl
  | succ f => intro k w h; rw [solidBody, if_neg (by omega)]

/-- A walk that begins at the locator of a cell that does not follow a core. -/
theorem solidWalk_eq {nx ny nz my g : Nat} (hx : 0 < nx) (hy : 0 < ny) (hb : g + my ≤ (nx * ny + 1) * nz)
    (hg : g % (nx * ny + 1) ≠ 1) :
    (solidWalk nx ny nz my (locatorAt nx ny g)).out = (List.range my).map (fun t => placeAt nx ny (g + t)) ∧
    ((g + my) % (nx * ny + 1) ≠ 1 →
      (solidWalk nx ny nz my (locatorAt nx ny g)).here = locatorAt nx ny (g + my)) ∧
    ((g + my) % (nx * ny + 1) = 1 → ∃ j, j < ny ∧
      (solidWalk nx ny nz my (locatorAt nx ny g)).here = ⟨0, j, (g + my) / (nx * ny + 1)⟩) := by
  rcases Nat.eq_zero_or_pos my with e | hpos
  · subst e
    rw [solidWalk, solidBody_zero _ _ _ _ _ _ rfl]
    exact ⟨rfl, fun _ => rfl, fun h => absurd h hg⟩
  · have hdm := Nat.mod_add_div g (nx * ny + 1)
    have hml : g % (nx * ny + 1) < nx * ny + 1 := Nat.mod_lt _ (by omega)
    have hxy : 0 < nx * ny := Nat.mul_pos hx hy
    have hk : g / (nx * ny + 1) ≤ nz := by
      apply Nat.div_le_of_le_mul
      omega
    have hli : (g % (nx * ny + 1) - 1) % nx < nx := Nat.mod_lt _ hx
    have hlj : (g % (nx * ny + 1) - 1) / nx < ny := Nat.div_lt_of_lt_mul (by omega)
    have hrow := Nat.mod_add_div (g % (nx * ny + 1) - 1) nx
    have hb' := solidBody_inv hx hy hb nz (locatorAt nx ny g).k
      { cell := 0, iStart := (locatorAt nx ny g).i, jStart := (locatorAt nx ny g).j, here := locatorAt nx ny g,
        out := [] } (by omega) hk
      ⟨rfl, by show 0 ≤ my; omega, fun h => absurd h (by show ¬ 0 = my; omega),
        fun h => absurd h (by show ¬ 0 = my; omega)⟩
      (by
        intro _
        refine ⟨rfl, hli, hlj, hlj, ?_⟩
        by_cases h0 : g % (nx * ny + 1) = 0
        · left
          refine ⟨?_, ?_, ?_⟩
          · show (g % (nx * ny + 1) - 1) / nx = 0
            rw [h0]; simp
          · show (g % (nx * ny + 1) - 1) % nx = 0
            rw [h0]; simp
          · show (nx * ny + 1) * (g / (nx * ny + 1)) = g + 0
            omega
        · right
          refine ⟨?_, ?_⟩
          · rintro ⟨u1, u2⟩
            have u1' : (g % (nx * ny + 1) - 1) / nx = 0 := u1
            have u2' : (g % (nx * ny + 1) - 1) % nx = 0 := u2
            rw [u1', u2'] at hrow
            omega
          · show 1 + (g % (nx * ny + 1) - 1) % nx + nx * ((g % (nx * ny + 1) - 1) / nx) +
              (nx * ny + 1) * (g / (nx * ny + 1)) = g + 0
            omega)
    obtain ⟨hI, hcell⟩ := hb'
    refine ⟨?_, hI.done hcell, fun h => ?_⟩
    · have := hI.out
      rw [hcell] at this
      exact this
    · obtain ⟨c1, c2, c3⟩ := hI.core hcell h
      have hcell' : ∀ (c : Cell) (n : Nat), c.i = 0 → c.k = n → c = ⟨0, c.j, n⟩ := by
        rintro ⟨i, j, k⟩ n e1 e2
        have e1' : i = 0 := e1
        have e2' : k = n := e2
        rw [e1', e2']
      exact ⟨_, c2, hcell' _ _ c1 c3⟩

/-! ## A walk that begins behind a core -/

theorem solidRow_prefix (nx my j k : Nat) : ∀ (fuel i : Nat) (w : SolidWalk),
    ∃ l, (solidRow nx my j k fuel i w).out = w.out ++ l := by
  intro fuel
  induction fuel with
  | zero => intro i w; exact ⟨[], (List.append_nil _).symm⟩
  | succ f ih =>
      intro i w
      rw [solidRow]
      split_ifs
      · obtain ⟨l, hl⟩ := ih (i + 1) { w with
            cell := w.cell + 1, iStart := 0, here := { w.here with i := w.here.i + 1 },
            out := w.out ++ [.ring ⟨i, j, k⟩] }
        exact ⟨_, hl.trans (List.append_assoc _ _ _)⟩
      · exact ⟨[], (List.append_nil _).symm⟩

theorem solidPlane_prefix (nx ny my k : Nat) : ∀ (fuel j : Nat) (w : SolidWalk),
    ∃ l, (solidPlane nx ny my k fuel j w).out = w.out ++ l := by
  intro fuel
  induction fuel with
  | zero => intro j w; exact ⟨[], (List.append_nil _).symm⟩
  | succ f ih =>
      intro j w
      rw [solidPlane]
      split_ifs
      · simp only
        obtain ⟨l1, h1⟩ := solidRow_prefix nx my j k nx w.iStart { w with jStart := 0, here := { w.here with j := j } }
        obtain ⟨l2, h2⟩ := ih (j + 1) { solidRow nx my j k nx w.iStart { w with jStart := 0, here := { w.here with j := j } } with
          here := nextRow nx ny my
            (solidRow nx my j k nx w.iStart { w with jStart := 0, here := { w.here with j := j } }).cell
            (solidRow nx my j k nx w.iStart { w with jStart := 0, here := { w.here with j := j } }).here }
        exact ⟨l1 ++ l2, by rw [h2, ← List.append_assoc]; exact congrArg (· ++ l2) h1⟩
      · exact ⟨[], (List.append_nil _).symm⟩

theorem solidBody_prefix (nx ny nz my : Nat) : ∀ (fuel k : Nat) (w : SolidWalk),
    ∃ l, (solidBody nx ny nz my fuel k w).out = w.out ++ l := by
  intro fuel
  induction fuel with
  | zero => intro j w; exact ⟨[], (List.append_nil _).symm⟩
  | succ f ih =>
      intro k w
      rw [solidBody]
      split_ifs
      · simp only
        obtain ⟨l0, h0⟩ : ∃ l, (solidCore k { w with here := { w.here with k := k } }).out = w.out ++ l := by
          rw [solidCore]
          split_ifs
          · exact ⟨_, rfl⟩
          · exact ⟨[], (List.append_nil _).symm⟩
        obtain ⟨l1, h1⟩ := solidPlane_prefix nx ny my k ny
          (solidCore k { w with here := { w.here with k := k } }).jStart
          (solidCore k { w with here := { w.here with k := k } })
        obtain ⟨l2, h2⟩ := ih (k + 1) _
        exact ⟨l0 ++ (l1 ++ l2), by rw [h2, h1, h0, List.append_assoc, List.append_assoc]⟩
      · exact ⟨[], (List.append_nil _).symm⟩

/-- The first cell of a walk that begins at the beginning of a row. -/
theorem solidWalk_first {nx ny nz my j k : Nat} (hx : 0 < nx) (hj : j < ny) (hk : k < nz) (hm : 0 < my) :
    ∃ l, (solidWalk nx ny nz my ⟨0, j, k⟩).out = (if j = 0 then Place.core k else .ring ⟨0, j, k⟩) :: l := by
  obtain ⟨nz', rfl⟩ : ∃ n, nz = n + 1 := ⟨nz - 1, by omega⟩
  rw [solidWalk, solidBody]
  simp only
  rw [if_pos ⟨hk, hm⟩]
  by_cases h0 : j = 0
  · subst h0
    rw [if_pos rfl, solidCore, if_pos ⟨rfl, rfl⟩]
    simp only [List.nil_append]
    obtain ⟨l1, h1⟩ := solidPlane_prefix nx ny my k ny 0
      { cell := 0 + 1, iStart := 0, jStart := 0, here := ⟨0, 0, k⟩, out := [Place.core k] }
    obtain ⟨l2, h2⟩ := solidBody_prefix nx ny (nz' + 1) my nz' (k + 1) (solidPlane nx ny my k ny 0
      { cell := 0 + 1, iStart := 0, jStart := 0, here := ⟨0, 0, k⟩, out := [Place.core k] })
    exact ⟨l1 ++ l2, by rw [h2, h1]; rfl⟩
  · rw [if_neg h0, solidCore, if_neg (fun h => h0 h.1)]
    obtain ⟨ny', rfl⟩ : ∃ n, ny = n + 1 := ⟨ny - 1, by omega⟩
    obtain ⟨nx', rfl⟩ : ∃ n, nx = n + 1 := ⟨nx - 1, by omega⟩
    rw [solidPlane]
    simp only
    rw [if_pos ⟨hj, hm⟩, solidRow]
    simp only
    rw [if_pos ⟨hx, hm⟩]
    simp only [List.nil_append]
    obtain ⟨l0, e0⟩ := solidRow_prefix (nx' + 1) my j k nx' (0 + 1)
      { cell := 0 + 1, iStart := 0, jStart := 0, here := ⟨0 + 1, j, k⟩, out := [Place.ring ⟨0, j, k⟩] }
    generalize hw : solidRow (nx' + 1) my j k nx' (0 + 1)
      { cell := 0 + 1, iStart := 0, jStart := 0, here := ⟨0 + 1, j, k⟩, out := [Place.ring ⟨0, j, k⟩] } = w0 at e0 ⊢
    obtain ⟨l1, e1⟩ := solidPlane_prefix (nx' + 1) (ny' + 1) my k ny' (j + 1)
      { w0 with here := nextRow (nx' + 1) (ny' + 1) my w0.cell w0.here }
    obtain ⟨l2, e2⟩ := solidBody_prefix (nx' + 1) (ny' + 1) (nz' + 1) my nz' (k + 1)
      (solidPlane (nx' + 1) (ny' + 1) my k ny' (j + 1) { w0 with here := nextRow (nx' + 1) (ny' + 1) my w0.cell w0.here })
    refine ⟨l0 ++ (l1 ++ l2), ?_⟩
    rw [e2, e1]
    show (w0.out ++ l1) ++ l2 = _
    rw [e0]
    simp

end Verif.Grid
