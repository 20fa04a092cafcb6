import Verif.ShearFactor.Lemmas
import Verif.Energy.Props
import Verif.Diffusion.FlowProps

/-!
# Stored energy and force of the multiphysics material: properties
-/

noncomputable section

namespace Verif.ShearFactor

open Verif Verif.Neigh Verif.Mech Verif.Energy Verif.Diffusion
open scoped Classical Matrix

/-- The size of the force of a bond. -/
def coupledTension (C : Config) (K mu : ℝ) (scf pressure theta : Nat → ℝ) (b : Bond) : ℝ :=
  tension C K (mu * scf b.i) theta b - (1 - C.damage b.b) * (3 * C.om b / C.m b.i * pressure b.i * C.zeta b)

theorem coupledBond_eq {C : Config} {K mu : ℝ} {scf pr theta : Nat → ℝ} {b : Bond} {g : V3}
    (h : coupledBond C K mu scf pr theta b = .ok g) :
    C.m b.i ≠ 0 ∧ C.dY b ≠ 0 ∧ g = (coupledTension C K mu scf pr theta b / C.dY b) • C.yd b := by
  unfold coupledBond at h
  split at h
  · cases h
  · next hm =>
    unfold along at h
    split at h
    · cases h
    · next hd =>
      refine ⟨hm, hd, ?_⟩
      rw [← Outcome.ok.inj h]
      funext c
      simp only [Pi.smul_apply, smul_eq_mul]
      unfold coupledTension tension
      ring

theorem coupledPower_eq {C : Config} {K mu : ℝ} {scf pr theta : Nat → ℝ} {nbs : List (List Nat)} {F : Nat → V3}
    (h : kernel (selfVol C) (nbrVol C) (coupledBond C K mu scf pr theta) nbs.length (encode nbs) 0 = .ok F)
    (d : Nat → V3) {N : Nat} (hN : Within nbs N) :
    power C F d N = -((bondsOf nbs).map fun b =>
      C.v b.j * coupledTension C K mu scf pr theta b * rate C d b * C.v b.i).sum ∧
    ∀ b ∈ bondsOf nbs, C.m b.i ≠ 0 ∧ C.dY b ≠ 0 := by
  obtain ⟨gs, h1, h2, h3⟩ := kernel_scattered h
  have hw := bonds_within hN
  have h4 := sum_scattered_gen N (fun k => C.v k • dotL (d k)) h3 (fun x hx => by
    have : x.1 ∈ bondsOf nbs := by rw [← h1]; exact List.mem_map_of_mem hx
    exact hw _ this)
  have hpow : power C F d N = ∑ k ∈ Finset.range N, (C.v k • dotL (d k)) (F k) := rfl
  constructor
  · rw [hpow, h4, ← h1, List.map_map]
    simp only [Pi.zero_apply, map_zero, Finset.sum_const_zero, zero_add]
    rw [← neg_one_mul, ← List.sum_map_mul_left]
    congr 1
    apply List.map_congr_left
    intro x hx
    obtain ⟨hm, hd, hg⟩ := coupledBond_eq (h2 x hx)
    have e1 : ∀ w : V3, dotL w x.2 = coupledTension C K mu scf pr theta x.1 / C.dY x.1 * (C.yd x.1 ⬝ᵥ w) := by
      intro w
      rw [hg, map_smul, smul_eq_mul]
      rfl
    have ej : nbrVol C x.1 = C.v x.1.j := rfl
    have ei : selfVol C x.1 = C.v x.1.i := rfl
    simp only [Function.comp, LinearMap.smul_apply, e1, smul_eq_mul, rate, dotProduct_sub, ei, ej]
    field_simp
    ring
  · intro b hb
    rw [← h1] at hb
    obtain ⟨x, hx, rfl⟩ := List.mem_map.1 hb
    exact ⟨(coupledBond_eq (h2 x hx)).1, (coupledBond_eq (h2 x hx)).2.1⟩

theorem energyDensity_m {C : Config} {K mu : ℝ} {scf theta W0 W : Nat → ℝ} {nbs : List (List Nat)}
    (h : energyDensity C K mu scf theta nbs.length (encode nbs) W0 = .ok W) {p : Nat}
    (hp : p < nbs.length) : C.m p ≠ 0 := by
  rw [energyDensity, visited_encode, Outcome.ok_bind] at h
  have := (densityLoop_eq h).1 p (List.mem_range.2 hp)
  unfold densityAt at this
  split at this
  · cases this
  · assumption

theorem freeEnergy_eq {C : Config} {K mu : ℝ} {scf pr : Nat → ℝ} {nbs : List (List Nat)} {E : ℝ}
    (h : FreeEnergyIs C K mu scf pr nbs E) :
    E = ∑ p ∈ Finset.range nbs.length, (pointEnergy C K (mu * scf p) nbs (theta' C nbs) p -
      pr p * theta' C nbs p * C.v p) := by
  obtain ⟨th, theta, W0, W, h1, h2, rfl⟩ := h
  apply Finset.sum_congr rfl
  intro p hp
  have hp := Finset.mem_range.1 hp
  have ht : theta p = theta' C nbs p := dilatation_eq h1 hp
  rw [energyDensity_eq h2 hp, energySum_eq, pointEnergy]
  have e : ((bondsAt nbs p).map fun b => kap C b * (C.ext b - theta b.i * C.zeta b / 3) ^ 2) =
      (bondsAt nbs p).map fun b => kap C b * (C.ext b - theta' C nbs p * C.zeta b / 3) ^ 2 := by
    apply List.map_congr_left
    intro b hb
    rw [of_decide_eq_true (List.mem_filter.1 hb).2, ht]
  rw [e, ht]
  ring

/-- The derivative of the energy, for bonds that are intact or broken. -/
theorem freeEnergy_deriv {C : Config} {K mu : ℝ} {P : Fluid} {scf pr : Nat → ℝ} {nbs : List (List Nat)}
    {th theta Q : Nat → ℝ} {F : Nat → V3}
    (h : multiphysicsMaterial C K mu P scf pr nbs.length (encode nbs) th = .ok (theta, F, Q))
    (hib : ∀ b ∈ bondsOf nbs, C.damage b.b = 0 ∨ C.damage b.b = 1) (d : Nat → V3) {N : Nat}
    (hN : Within nbs N) {E : ℝ → ℝ} (hE : ∀ s, FreeEnergyIs (shifted C d s) K mu scf pr nbs (E s)) :
    HasDerivAt E (-power C F d N - ∑ p ∈ Finset.range nbs.length,
      15 * (mu * scf p) / C.m p / 9 * theta p * thetaRate C nbs d p *
        (C.m p - intactVolume C nbs p) * C.v p) 0 := by
  obtain ⟨hth, hF, -⟩ := multiphysics_parts h
  obtain ⟨hpow, hb⟩ := coupledPower_eq hF d hN
  have hm : ∀ p < nbs.length, C.m p ≠ 0 := by
    intro p hp
    obtain ⟨_, _, _, _, _, h2, _⟩ := hE 0
    exact energyDensity_m h2 hp
  have hEs : E = fun s => ∑ p ∈ Finset.range nbs.length,
      (pointEnergy (shifted C d s) K (mu * scf p) nbs (theta' (shifted C d s) nbs) p -
        pr p * theta' (shifted C d s) nbs p * C.v p) := by
    funext s
    exact freeEnergy_eq (hE s)
  rw [hEs]
  have hsum := HasDerivAt.fun_sum (u := Finset.range nbs.length) fun p hp =>
    (point_deriv K (mu * scf p) d p (fun b hb' => (hb b hb').2) (hm p (Finset.mem_range.1 hp))
      (fun b hb' => hib b (List.mem_filter.1 hb').1)).sub
    (((theta_deriv d p (fun b hb' => (hb b hb').2)).const_mul (pr p)).mul_const (C.v p))
  refine hsum.congr_deriv ?_
  have ht : ∀ p < nbs.length, theta' C nbs p = theta p := fun p hp => (dilatation_eq hth hp).symm
  have hbi : ∀ b ∈ bondsOf nbs, b.i < nbs.length := by
    intro b hb'
    obtain ⟨ns, h1, _⟩ := mem_bondsOf hb'
    exact (List.getElem?_eq_some_iff.1 h1).1
  rw [hpow, neg_neg, ← sum_partition _ _ hbi (fun b => C.v b.j * coupledTension C K mu scf pr theta b * rate C d b)
    C.v, ← Finset.sum_sub_distrib]
  apply Finset.sum_congr rfl
  intro p hp
  have hp := Finset.mem_range.1 hp
  have e1 : ((bondsAt nbs p).map fun b => C.v b.j * coupledTension C K mu scf pr theta b * rate C d b).sum =
      ((bondsAt nbs p).map fun b => C.v b.j * tension C K (mu * scf p) (theta' C nbs) b * rate C d b).sum -
        pr p * thetaRate C nbs d p := by
    rw [thetaRate, sub_eq_add_neg, ← neg_one_mul, ← mul_assoc, ← List.sum_map_mul_left, ← List.sum_map_add]
    congr 1
    apply List.map_congr_left
    intro b hb'
    have hi : b.i = p := of_decide_eq_true (List.mem_filter.1 hb').2
    unfold coupledTension tension kap
    rw [hi, ht p hp]
    ring
  rw [e1, ht p hp]
  ring

/-! ## C178: the internal force and the stored energy -/

/-- C178, for bodies without damage: along every displacement of the points, with the pore pressure held, work is done
against the internal forces at the rate at which the stored energy less pressure times volume change grows; for every
surface correction factor.

What is missing: bodies with broken bonds, see `C178_broken`. -/
theorem C178_partial {C : Config} {K mu : ℝ} {P : Fluid} {scf pr : Nat → ℝ} {nbs : List (List Nat)}
    {th theta Q : Nat → ℝ} {F : Nat → V3}
    (h : multiphysicsMaterial C K mu P scf pr nbs.length (encode nbs) th = .ok (theta, F, Q))
    (hint : Intact C nbs) (hw : Weighted C nbs) (d : Nat → V3) {N : Nat} (hN : Within nbs N)
    {E : ℝ → ℝ} (hE : ∀ s, FreeEnergyIs (shifted C d s) K mu scf pr nbs (E s)) :
    HasDerivAt E (-power C F d N) 0 := by
  have hd : ∀ b ∈ bondsOf nbs, C.damage b.b = 0 := by
    intro b hb
    obtain ⟨t, ⟨ns, h1, h2⟩, h3⟩ := bondsOf_pos hb
    rw [h3]
    exact hint _ _ _ h1 (List.getElem?_eq_some_iff.1 h2).1
  refine (freeEnergy_deriv h (fun b hb => Or.inl (hd b hb)) d hN hE).congr_deriv ?_
  rw [sub_eq_self]
  apply Finset.sum_eq_zero
  intro p hp
  have : intactVolume C nbs p = C.m p := by
    rw [weighted_eq hw (Finset.mem_range.1 hp), intactVolume]
    congr 1
    apply List.map_congr_left
    intro b hb
    rw [kap, hd b (List.mem_filter.1 hb).1]
    ring
  rw [this]
  ring

/-- C178: this energy exists for all displacements. -/
theorem C178_defined {C : Config} (K mu : ℝ) (scf pr : Nat → ℝ) {nbs : List (List Nat)}
    (hm : ∀ p < nbs.length, C.m p ≠ 0) (d : Nat → V3) :
    ∃ E : ℝ → ℝ, ∀ s, FreeEnergyIs (shifted C d s) K mu scf pr nbs (E s) := by
  have : ∀ s, ∃ E, FreeEnergyIs (shifted C d s) K mu scf pr nbs E := by
    intro s
    obtain ⟨theta, ht⟩ : ∃ theta, dilatation (shifted C d s) nbs.length (encode nbs) (fun _ => 0) = .ok theta := by
      unfold dilatation
      rw [visited_encode]
      refine dilatationLoop_ok (fun b hb => ?_) _
      obtain ⟨ns, h1, _⟩ := mem_bondsOf hb
      exact hm _ (List.getElem?_eq_some_iff.1 h1).1
    obtain ⟨W, hW⟩ := densityLoop_ok (C := shifted C d s) (K := K) (mu := mu) (scf := scf) (theta := theta)
      (bonds := bondsOf nbs) (ps := List.range nbs.length) (fun p hp => hm p (List.mem_range.1 hp)) (fun _ => 0)
    refine ⟨_, _, theta, fun _ => 0, W, ht, ?_, rfl⟩
    rw [energyDensity, visited_encode, Outcome.ok_bind, hW]
  exact ⟨fun s => (this s).choose, fun s => (this s).choose_spec⟩

/-- A stretched body with a pore pressure and factors that vary. -/
example : ∃ theta F Q, ∃ E : ℝ → ℝ, multiphysicsMaterial row 2 1 (water 1) (fun k => k + 1) (fun k => k) rowNbs.length
      (encode rowNbs) (fun _ => 0) = .ok (theta, F, Q) ∧ Intact row rowNbs ∧ Weighted row rowNbs ∧ Within rowNbs 3 ∧
    ∀ s, FreeEnergyIs (shifted row (fun k => if k = 1 then ![1, 0, 0] else 0) s) 2 1 (fun k => k + 1) (fun k => k)
      rowNbs (E s) := by
  obtain ⟨theta, F, Q, h⟩ := C108_defined row 2 1 (water 1) (fun k => k + 1) (fun k => k) rowNbs (fun _ => 0)
    (water_physical 1) (by norm_num [row]) (row_proper row.damage)
  obtain ⟨E, hE⟩ := C178_defined (C := row) 2 1 (fun k => k + 1) (fun k => k) row_m
    (fun k => if k = 1 then ![1, 0, 0] else 0)
  exact ⟨theta, F, Q, E, h, fun _ _ _ _ _ => rfl, row_weighted, row_within, hE⟩

/-- C178 is false when bonds are broken, with and without pore pressure. -/
theorem C178_broken (K : ℝ) {mu : ℝ} (hmu : mu ≠ 0) (pr : Nat → ℝ) :
    ∃ (C : Config) (nbs : List (List Nat)) (theta : Nat → ℝ) (F d : Nat → V3) (Q : Nat → ℝ) (E : ℝ → ℝ),
      multiphysicsMaterial C K mu (water 1) (fun _ => 1) pr nbs.length (encode nbs) (fun _ => 0) = .ok (theta, F, Q) ∧
      IntactOrBroken C ∧ Weighted C nbs ∧ Within nbs 3 ∧
      (∀ s, FreeEnergyIs (shifted C d s) K mu (fun _ => 1) pr nbs (E s)) ∧ ¬ HasDerivAt E (-power C F d 3) 0 := by
  obtain ⟨theta, F, Q, h⟩ := C108_defined rowBroken K mu (water 1) (fun _ => 1) pr rowNbs (fun _ => 0)
    (water_physical 1) (by norm_num [rowBroken, row]) (row_proper rowBroken.damage)
  obtain ⟨E, hE⟩ := C178_defined (C := rowBroken) K mu (fun _ => 1) pr row_m
    (fun k => if k = 1 then ![1, 0, 0] else 0)
  have hib : IntactOrBroken rowBroken := by
    intro b
    unfold rowBroken
    simp only
    split
    · right; rfl
    · left; rfl
  refine ⟨rowBroken, rowNbs, theta, F, _, Q, E, h, hib, row_weighted, row_within, hE, fun hd => ?_⟩
  have h2 := freeEnergy_deriv (C := rowBroken) h (fun b _ => hib b.b) _ row_within hE
  have h3 := hd.unique h2
  obtain ⟨hth, -, -⟩ := multiphysics_parts (C := rowBroken) h
  have hlen : rowNbs.length = 3 := rfl
  have e := fun p hp => dilatation_eq hth (p := p) hp
  have t0 := e 0 (by decide)
  have t1 := e 1 (by decide)
  have t2 := e 2 (by decide)
  rw [bondsAt, row_bonds] at t0 t1 t2
  simp [kap, rowBroken, row, Config.om, Config.zeta, Config.ext, Config.dY, Config.yd, len] at t0 t1 t2
  rw [hlen] at h3
  simp only [Finset.sum_range_succ, Finset.sum_range_zero, thetaRate, intactVolume, bondsAt, row_bonds,
    t0, t1, t2] at h3
  simp [kap, rowBroken, row, Config.om, Config.zeta, Config.dY, Config.yd, len, rate] at h3
  exact hmu (by linarith)

end Verif.ShearFactor
