import Verif.Energy.Lemmas

/-!
# Stored energy: properties
-/

noncomputable section

namespace Verif.Energy

open Verif Verif.Neigh Verif.Mech
open scoped Classical

/-! ## C97: the internal force and the stored energy -/

/-- C97, for bodies without damage: along every displacement of the points the stored energy changes
at the rate at which work is done against the internal forces.

What is missing: bodies with broken bonds, see `C97_broken`; partly damaged bonds are not covered
either. -/
theorem C97_partial {C : Config} {K mu : ℝ} {nbs : List (List Nat)} {th theta : Nat → ℝ}
    {F : Nat → V3} (h : elasticMaterial C K mu nbs.length (encode nbs) th = .ok (theta, F))
    (hint : Intact C nbs) (hw : Weighted C nbs) (d : Nat → V3) {N : Nat} (hN : Within nbs N)
    {E : ℝ → ℝ} (hE : ∀ s, EnergyIs (shifted C d s) K mu nbs (E s)) :
    HasDerivAt E (-power C F d N) 0 := by
  have hd : ∀ b ∈ bondsOf nbs, C.damage b.b = 0 := by
    intro b hb
    obtain ⟨t, ⟨ns, h1, h2⟩, h3⟩ := bondsOf_pos hb
    rw [h3]
    exact hint _ _ _ h1 (List.getElem?_eq_some_iff.1 h2).1
  refine (energy_deriv h (fun b hb => Or.inl (hd b hb)) d hN hE).congr_deriv ?_
  rw [sub_eq_self]
  apply Finset.sum_eq_zero
  intro p hp
  have : intactVolume C nbs p = C.m p := by
    rw [weighted_eq hw (Finset.mem_range.1 hp), intactVolume]
    congr 1
    apply List.map_congr_left
    intro b hb
    rw [kap, hd b (List.mem_filter.1 hb).1]
    ring
  rw [this]
  ring

/-- The stored energy exists for all displacements. -/
theorem C97_defined {C : Config} (K mu : ℝ) {nbs : List (List Nat)}
    (hm : ∀ p < nbs.length, C.m p ≠ 0) (d : Nat → V3) :
    ∃ E : ℝ → ℝ, ∀ s, EnergyIs (shifted C d s) K mu nbs (E s) :=
  ⟨fun s => (energy_defined (C := shifted C d s) K mu hm).choose,
    fun s => (energy_defined (C := shifted C d s) K mu hm).choose_spec⟩

/-- Three points in a row; point 0 is between the others. -/
def row : Config where
  x := fun k => if k = 1 then ![1, 0, 0] else if k = 2 then ![-1, 0, 0] else 0
  y := fun k => if k = 1 then ![2, 0, 0] else if k = 2 then ![-1, 0, 0] else 0
  v := fun _ => 1
  m := fun k => if k = 0 then 2 else if k < 3 then 1 else 0
  damage := fun _ => 0
  omega := fun _ _ => 1
  horizon := 2
  thermal := none

/-- Neighborhoods of the case. -/
def rowNbs : List (List Nat) := [[1, 2], [0], [0]]

/-- The same with the bond between 0 and 2 broken. -/
def rowBroken : Config := { row with damage := fun b => if b = 1 ∨ b = 3 then 1 else 0 }

theorem row_within : Within rowNbs 3 := by
  refine ⟨by decide, ?_⟩
  simp [rowNbs]

theorem len_x (a : ℝ) : len ![a, 0, 0] = |a| := by
  simp [len, Real.sqrt_mul_self_eq_abs]

theorem row_bonds : bondsOf rowNbs = [⟨0, 1, 0⟩, ⟨0, 2, 1⟩, ⟨1, 0, 2⟩, ⟨2, 0, 3⟩] := by
  simp [bondsOf, bondsFrom, rowNbs, pointBonds]

theorem row_zeta {b : Bond} (hb : b ∈ bondsOf rowNbs) : row.zeta b = 1 := by
  rw [row_bonds] at hb
  simp only [List.mem_cons, List.not_mem_nil, or_false] at hb
  rcases hb with rfl | rfl | rfl | rfl <;> simp [Config.zeta, row, len]

theorem row_weighted : Weighted row rowNbs := by
  obtain ⟨m', h1, h2, h3⟩ := C22_stored row rowNbs (fun _ => 0)
  refine ⟨fun _ => 0, ?_⟩
  rw [h1]
  congr 1
  funext p
  have h0 := h2 0 [1, 2] rfl
  have h1 := h2 1 [0] rfl
  have h2 := h2 2 [0] rfl
  match p with
  | 0 => rw [h0, weightedVolumeAt_eq]; simp [row, len]; norm_num
  | 1 => rw [h1, weightedVolumeAt_eq]; simp [row, len]
  | 2 => rw [h2, weightedVolumeAt_eq]; simp [row, len]
  | p + 3 => rw [h3 (p + 3) (by simp [rowNbs])]; simp [row]

theorem row_proper (D : Nat → ℝ) : Proper { row with damage := D } rowNbs := by
  have h01 : row.y 1 ≠ row.y 0 ∧ row.x 1 ≠ row.x 0 := by
    constructor <;> intro h <;> simpa [row] using congrFun h 0
  have h02 : row.y 2 ≠ row.y 0 ∧ row.x 2 ≠ row.x 0 := by
    constructor <;> intro h <;> simpa [row] using congrFun h 0
  intro p j ⟨ns, hp, hj⟩
  match p, hp with
  | 0, hp =>
    cases hp
    rcases (by simpa using hj : j = 1 ∨ j = 2) with rfl | rfl
    · exact ⟨by simp [row], h01.1, h01.2⟩
    · exact ⟨by simp [row], h02.1, h02.2⟩
  | 1, hp =>
    cases hp
    obtain rfl : j = 0 := by simpa using hj
    exact ⟨by simp [row], h01.1.symm, h01.2.symm⟩
  | 2, hp =>
    cases hp
    obtain rfl : j = 0 := by simpa using hj
    exact ⟨by simp [row], h02.1.symm, h02.2.symm⟩
  | p + 3, hp => simp [rowNbs] at hp

theorem row_m : ∀ p < rowNbs.length, row.m p ≠ 0 := by
  intro p hp
  have : p < 3 := hp
  unfold row
  simp only
  split
  · norm_num
  · norm_num

/-- A stretched body for which the energy exists along a displacement and changes. -/
example : ∃ theta F, ∃ E : ℝ → ℝ, elasticMaterial row 2 1 rowNbs.length (encode rowNbs) (fun _ => 0) =
      .ok (theta, F) ∧ Intact row rowNbs ∧ Weighted row rowNbs ∧ Within rowNbs 3 ∧
    ∀ s, EnergyIs (shifted row (fun k => if k = 1 then ![1, 0, 0] else 0) s) 2 1 rowNbs (E s) := by
  obtain ⟨theta, F, h⟩ := elastic_defined (row_proper row.damage) 2 1 (fun _ => 0)
  obtain ⟨E, hE⟩ := C97_defined (C := row) 2 1 row_m (fun k => if k = 1 then ![1, 0, 0] else 0)
  exact ⟨theta, F, E, h, fun _ _ _ _ _ => rfl, row_weighted, row_within, hE⟩

/-- C97 is false when bonds are broken: the weighted volume of a point still counts its broken bonds,
and the force is then not the gradient of the energy. -/
theorem C97_broken (K : ℝ) {mu : ℝ} (hmu : mu ≠ 0) :
    ∃ (C : Config) (nbs : List (List Nat)) (theta : Nat → ℝ) (F d : Nat → V3) (E : ℝ → ℝ),
      elasticMaterial C K mu nbs.length (encode nbs) (fun _ => 0) = .ok (theta, F) ∧
      IntactOrBroken C ∧ Weighted C nbs ∧ Within nbs 3 ∧
      (∀ s, EnergyIs (shifted C d s) K mu nbs (E s)) ∧ ¬ HasDerivAt E (-power C F d 3) 0 := by
  obtain ⟨theta, F, h⟩ := elastic_defined (row_proper rowBroken.damage) K mu (fun _ => 0)
  obtain ⟨E, hE⟩ := C97_defined (C := rowBroken) K mu row_m (fun k => if k = 1 then ![1, 0, 0] else 0)
  have hib : IntactOrBroken rowBroken := by
    intro b
    unfold rowBroken
    simp only
    split
    · right; rfl
    · left; rfl
  refine ⟨rowBroken, rowNbs, theta, F, _, E, h, hib, row_weighted, row_within, hE, fun hd => ?_⟩
  have h2 := energy_deriv (C := rowBroken) h (fun b _ => hib b.b) _ row_within hE
  have h3 := hd.unique h2
  obtain ⟨hth, _⟩ := elastic_parts (C := rowBroken) h
  have hlen : rowNbs.length = 3 := rfl
  have e := fun p hp => dilatation_eq hth (p := p) hp
  have t0 := e 0 (by decide)
  have t1 := e 1 (by decide)
  have t2 := e 2 (by decide)
  rw [bondsAt, row_bonds] at t0 t1 t2
  simp [kap, rowBroken, row, Config.om, Config.zeta, Config.ext, Config.dY, Config.yd, len] at t0 t1 t2
  rw [hlen] at h3
  simp only [Finset.sum_range_succ, Finset.sum_range_zero, thetaRate, intactVolume, bondsAt, row_bonds,
    t0, t1, t2] at h3
  simp [kap, rowBroken, row, Config.om, Config.zeta, Config.ext, Config.dY, Config.yd, len, rate] at h3
  exact hmu (by linarith)

/-! ## C98: the stored energy is non-negative, and zero only for the undeformed body -/

/-- No point reports a negative stored energy, whatever the deformation and the damage. -/
theorem C98_nonneg {C : Config} {K mu : ℝ} {nbs : List (List Nat)} (ha : Admissible C K mu nbs)
    {theta W U0 U : Nat → ℝ}
    (h : storedEnergy C K mu theta nbs.length (encode nbs) W U0 = .ok U) :
    ∀ p < nbs.length, 0 ≤ U p := by
  intro p hp
  rw [(storedEnergy_eq h hp).2]
  exact pointEnergy_nonneg ha theta hp

/-- Without thermal strains the stored energy vanishes exactly when the bonds that carry force have
kept their lengths. -/
theorem C98_zero_iff {C : Config} {K mu : ℝ} {nbs : List (List Nat)} (ha : Admissible C K mu nbs)
    (hth : C.thermal = none) {E : ℝ} (h : EnergyIs C K mu nbs E) : E = 0 ↔ LengthsKept C nbs := by
  have hext : ∀ b, C.ext b = C.dY b - C.zeta b := by
    intro b
    unfold Config.ext
    rw [hth]
  rw [energyIs_eq h]
  constructor
  · intro h0 p ns t j h1 h2 h3 h4
    have hp : p < nbs.length := (List.getElem?_eq_some_iff.1 h1).1
    have hz := (Finset.sum_eq_zero_iff_of_nonneg fun q hq =>
      pointEnergy_nonneg ha _ (Finset.mem_range.1 hq)).1 h0 p (Finset.mem_range.2 hp)
    have hb := pointEnergy_zero ha _ hp hz _ (mem_bonds h1 h2)
    have hk : kap C ⟨p, j, bondPos nbs p t⟩ ≠ 0 :=
      (mul_pos (mul_pos (sub_pos.2 h3) h4) (ha.volume j)).ne'
    have := pow_eq_zero_iff two_ne_zero |>.1 ((mul_eq_zero.1 hb).resolve_left hk)
    rw [hext] at this
    exact sub_eq_zero.1 this
  · intro hk
    have hb : ∀ b ∈ bondsOf nbs, kap C b * C.ext b = 0 := by
      intro b hb
      obtain ⟨t, ⟨ns, h1, h2⟩, h3⟩ := bondsOf_pos hb
      by_cases hd : C.damage b.b < 1
      · by_cases ho : 0 < C.om b
        · have := hk b.i ns t b.j h1 h2 (h3 ▸ hd) ho
          rw [hext, show C.dY b = C.zeta b from this, sub_self, mul_zero]
        · have : C.om b = 0 := le_antisymm (not_lt.1 ho) (ha.influence _ _)
          rw [kap, this]
          ring
      · have : C.damage b.b = 1 := le_antisymm (ha.damage _) (not_lt.1 hd)
        rw [kap, this]
        ring
    have ht : ∀ p, theta' C nbs p = 0 := by
      intro p
      apply List.sum_eq_zero
      intro x hx
      obtain ⟨b, hb', rfl⟩ := List.mem_map.1 hx
      have := hb b (List.mem_filter.1 hb').1
      rw [show 3 * kap C b * C.zeta b * C.ext b = 3 * C.zeta b * (kap C b * C.ext b) by ring, this,
        mul_zero, zero_div]
    apply Finset.sum_eq_zero
    intro p hp
    unfold pointEnergy
    rw [ht, show ((bondsAt nbs p).map fun b => kap C b * (C.ext b - 0 * C.zeta b / 3) ^ 2).sum = 0 from ?_]
    · ring
    · apply List.sum_eq_zero
      intro x hx
      obtain ⟨b, hb', rfl⟩ := List.mem_map.1 hx
      have := hb b (List.mem_filter.1 hb').1
      rw [show kap C b * (C.ext b - 0 * C.zeta b / 3) ^ 2 = kap C b * C.ext b * C.ext b by ring, this,
        zero_mul]

/-- The stored energy does not change when the deformed body is rotated and translated. -/
theorem C98_frame {C : Config} {K mu : ℝ} {nbs : List (List Nat)} {Q : Matrix (Fin 3) (Fin 3) ℝ}
    (hQ : Q.transpose * Q = 1) (c : V3) {E : ℝ} (h : EnergyIs C K mu nbs E) :
    EnergyIs { C with y := moved Q c C.y } K mu nbs E := by
  have hm : ∀ p < nbs.length, C.m p ≠ 0 := by
    intro p hp
    obtain ⟨_, _, _, _, _, _, h2, _⟩ := h
    exact (storedEnergy_eq h2 hp).1
  obtain ⟨E', h'⟩ := energy_defined (C := C.move Q c) K mu hm
  have : E' = E := by
    rw [energyIs_eq h, energyIs_eq h']
    have ht : theta' (C.move Q c) nbs = theta' C nbs := by
      funext p
      unfold theta'
      simp only [move_ext hQ]
      rfl
    apply Finset.sum_congr rfl
    intro p _
    unfold pointEnergy
    rw [ht]
    simp only [move_ext hQ]
    rfl
  rw [← this]
  exact h'

theorem row_admissible : Admissible rowBroken 2 1 rowNbs := by
  refine ⟨by norm_num, by norm_num, fun k => by simp [rowBroken, row], fun p hp => ?_,
    fun _ _ => by simp [rowBroken, row], fun b => ?_⟩
  · have : p < 3 := hp
    simp only [rowBroken, row]
    split
    · norm_num
    · norm_num
  · simp only [rowBroken]
    split <;> norm_num

/-- A stretched body with a broken bond: the energy exists and is not zero. -/
example : ∃ E, EnergyIs rowBroken 2 1 rowNbs E ∧ E ≠ 0 := by
  obtain ⟨E, hE⟩ := energy_defined (C := rowBroken) 2 1 row_m
  refine ⟨E, hE, fun h0 => ?_⟩
  have := (C98_zero_iff row_admissible rfl hE).1 h0 0 [1, 2] 0 1 rfl rfl
    (by simp [rowBroken, bondPos]) (by simp [rowBroken, row])
  simp [rowBroken, row, len] at this

/-- An undeformed body. -/
example : LengthsKept { rowBroken with y := row.x } rowNbs := fun _ _ _ _ _ _ _ _ => rfl

end Verif.Energy
