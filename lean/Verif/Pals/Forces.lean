import Verif.Pals.Lemmas
import Mathlib.LinearAlgebra.Matrix.ToLinearEquiv

/-! Lemmas for C132 to C134: forces and energy. -/

noncomputable section

namespace Verif.Pals

open Verif Verif.Neigh Verif.Mech Verif.Energy
open scoped Classical Matrix Topology

/-- The dilatation of a point. -/
def thetaAt (L : Law) (C : Config) (S : Setup) (nbs : List (List Nat)) (p : Nat) : ℝ :=
  ((bondsAt nbs p).map fun b => omega L C S b * C.zeta b * elong C b * C.v b.j).sum

/-- The pressure of a point. -/
def pressAt (L : Law) (C : Config) (S : Setup) (nbs : List (List Nat)) (theta : Nat → ℝ) (p : Nat) : ℝ :=
  -(2 * L.mu / 3) * ((bondsAt nbs p).map fun b => sigma L C S b * C.v b.j * C.zeta b * elong C b).sum +
    (L.K + 2 * L.mu * S.m p / 9) * theta p

/-- The size of the force of a bond. -/
def pull (L : Law) (C : Config) (S : Setup) (nbs : List (List Nat)) (theta : Nat → ℝ) (b : Bond) : ℝ :=
  pressAt L C S nbs theta b.i * omega L C S b * C.zeta b +
    2 * L.mu * sigma L C S b * (elong C b - theta b.i * C.zeta b / 3)

theorem pressureOf_eq (L : Law) (C : Config) (S : Setup) (nbs : List (List Nat)) (theta : Nat → ℝ) (p : Nat) :
    pressureOf L C S theta (bondsOf nbs) p = pressAt L C S nbs theta p := by
  unfold pressureOf pressAt
  rw [foldl_add, zero_add, ← sum_scale]
  congr 2
  apply List.map_congr_left
  intro b _
  ring

/-- What is known of a successful evaluation. -/
theorem material_parts {L : Law} {C : Config} {S : Setup} {nbs : List (List Nat)} {th theta : Nat → ℝ} {F : Nat → V3}
    (h : material L C S nbs.length (encode nbs) th = .ok (theta, F)) :
    (∀ p < nbs.length, theta p = thetaAt L C S nbs p) ∧ (∀ b ∈ bondsOf nbs, C.zeta b ≠ 0) ∧
      Scattered (selfVol C) (nbrVol C) (fun b g => along C b (pull L C S nbs theta b) = .ok g) (bondsOf nbs) 0 F := by
  unfold material at h
  rw [visited_encode] at h
  simp only at h
  split at h
  · cases h
  · next hz =>
    split at h
    · next G hG =>
      cases h
      refine ⟨fun p hp => ?_, fun b hb h0 => hz ⟨b, hb, h0⟩, ?_⟩
      · unfold dilatationOf thetaAt
        rw [if_pos hp, foldl_add, zero_add]
      · refine (scatter_scattered hG).mono fun b _ g hg => ?_
        unfold pairForce at hg
        rw [pressureOf_eq] at hg
        exact hg
    · cases h
    · cases h

theorem along_eq {C : Config} {b : Bond} {t : ℝ} {g : V3} (h : along C b t = .ok g) :
    C.dY b ≠ 0 ∧ g = (t / C.dY b) • C.yd b := by
  unfold along at h
  split at h
  · cases h
  · next hd =>
    refine ⟨hd, ?_⟩
    rw [← Outcome.ok.inj h]
    funext c
    simp only [Pi.smul_apply, smul_eq_mul]
    ring

theorem power_of {C : Config} {bs : List Bond} {t : Bond → ℝ} {F : Nat → V3} {N : Nat}
    (h : Scattered (selfVol C) (nbrVol C) (fun b g => along C b (t b) = .ok g) bs 0 F)
    (hw : ∀ b ∈ bs, b.i < N ∧ b.j < N) (d : Nat → V3) :
    power C F d N = -(bs.map fun b => C.v b.j * t b * rate C d b * C.v b.i).sum := by
  obtain ⟨gs, h1, h2, h3⟩ := h
  have h4 := sum_scattered_gen N (fun k => C.v k • dotL (d k)) h3 (fun x hx => by
    have : x.1 ∈ bs := by rw [← h1]; exact List.mem_map_of_mem hx
    exact hw _ this)
  have hpow : power C F d N = ∑ k ∈ Finset.range N, (C.v k • dotL (d k)) (F k) := rfl
  rw [hpow, h4, ← h1, List.map_map]
  simp only [Pi.zero_apply, map_zero, Finset.sum_const_zero, zero_add]
  rw [← neg_one_mul, ← List.sum_map_mul_left]
  congr 1
  apply List.map_congr_left
  intro x hx
  obtain ⟨hd, hg⟩ := along_eq (h2 x hx)
  have e1 : ∀ w : V3, dotL w x.2 = t x.1 / C.dY x.1 * (C.yd x.1 ⬝ᵥ w) := by
    intro w
    rw [hg, map_smul, smul_eq_mul]
    rfl
  have ej : nbrVol C x.1 = C.v x.1.j := rfl
  have ei : selfVol C x.1 = C.v x.1.i := rfl
  simp only [Function.comp, LinearMap.smul_apply, e1, smul_eq_mul, rate, dotProduct_sub, ei, ej]
  field_simp
  ring

/-- The energy of a point. -/
def pointEnergy (L : Law) (C : Config) (S : Setup) (nbs : List (List Nat)) (theta : Nat → ℝ) (p : Nat) : ℝ :=
  (1 / 2 * L.K * theta p ^ 2 + L.mu * ((bondsAt nbs p).map fun b =>
    sigma L C S b * C.v b.j * (elong C b - theta p * C.zeta b / 3) ^ 2).sum) * C.v p

theorem storedEnergy_eq {L : Law} {C : Config} {S : Setup} {theta U0 U : Nat → ℝ} {nbs : List (List Nat)}
    (h : storedEnergy L C S theta nbs.length (encode nbs) U0 = .ok U) {p : Nat} (hp : p < nbs.length) :
    U p = pointEnergy L C S nbs theta p := by
  unfold storedEnergy at h
  rw [visited_encode] at h
  simp only at h
  split at h
  · cases h
  · cases h
    rw [timesVolume, if_pos hp]
    unfold density pointEnergy
    simp only
    rw [foldl_add, zero_add]
    congr 1
    rw [show (0.5 : ℝ) = 1 / 2 by norm_num]
    congr 1
    · ring
    · congr 2
      apply List.map_congr_left
      intro b _
      ring

theorem energyIs_eq {L : Law} {C : Config} {S : Setup} {nbs : List (List Nat)} {E : ℝ} (h : EnergyIs L C S nbs E) :
    E = ∑ p ∈ Finset.range nbs.length, pointEnergy L C S nbs (thetaAt L C S nbs) p := by
  obtain ⟨th, theta, F, U0, U, h1, h2, rfl⟩ := h
  apply Finset.sum_congr rfl
  intro p hp
  have hp := Finset.mem_range.1 hp
  rw [storedEnergy_eq h2 hp]
  unfold pointEnergy
  rw [(material_parts h1).1 p hp]

theorem elong_deriv (C : Config) (d : Nat → V3) (b : Bond) (h : C.dY b ≠ 0) :
    HasDerivAt (fun s => elong (shifted C d s) b) (rate C d b) 0 :=
  ext_deriv { C with thermal := none } d b h

theorem theta_deriv {L : Law} {C : Config} {S : Setup} {nbs : List (List Nat)} (d : Nat → V3) (p : Nat)
    (h : ∀ b ∈ bondsOf nbs, C.dY b ≠ 0) :
    HasDerivAt (fun s => thetaAt L (shifted C d s) S nbs p)
      ((bondsAt nbs p).map fun b => omega L C S b * C.zeta b * rate C d b * C.v b.j).sum 0 := by
  unfold thetaAt
  refine list_deriv fun b hb => ?_
  exact ((elong_deriv C d b (h b (List.mem_filter.1 hb).1)).const_mul (omega L C S b * C.zeta b)).mul_const (C.v b.j)

theorem point_deriv {L : Law} {C : Config} {S : Setup} {nbs : List (List Nat)} (d : Nat → V3) (p : Nat)
    (h : ∀ b ∈ bondsOf nbs, C.dY b ≠ 0)
    (hm : S.m p = ((bondsAt nbs p).map fun b => sigma L C S b * C.zeta b ^ 2 * C.v b.j).sum) :
    HasDerivAt (fun s => pointEnergy L (shifted C d s) S nbs (thetaAt L (shifted C d s) S nbs) p)
      (((bondsAt nbs p).map fun b => C.v b.j * pull L C S nbs (thetaAt L C S nbs) b * rate C d b).sum * C.v p) 0 := by
  have h0 : shifted C d 0 = C := by
    unfold shifted
    simp
  have hth := theta_deriv (L := L) (S := S) d p h
  set T' := ((bondsAt nbs p).map fun b => omega L C S b * C.zeta b * rate C d b * C.v b.j).sum with hT'
  have hsum : HasDerivAt (fun s => ((bondsAt nbs p).map fun b =>
      sigma L C S b * C.v b.j * (elong (shifted C d s) b - thetaAt L (shifted C d s) S nbs p * C.zeta b / 3) ^ 2).sum)
      ((bondsAt nbs p).map fun b => sigma L C S b * C.v b.j * (2 * (elong C b - thetaAt L C S nbs p * C.zeta b / 3) *
        (rate C d b - T' * C.zeta b / 3))).sum 0 := by
    refine list_deriv fun b hb => ?_
    have he := elong_deriv C d b (h b (List.mem_filter.1 hb).1)
    have := ((he.sub ((hth.mul_const (C.zeta b)).div_const 3)).pow 2).const_mul (sigma L C S b * C.v b.j)
    refine this.congr_deriv ?_
    simp only [Pi.sub_apply, h0]
    norm_num
  have hW := ((((hth.pow 2).const_mul (1 / 2 * L.K)).add (hsum.const_mul L.mu)).mul_const (C.v p))
  refine hW.congr_deriv ?_
  simp only [h0]
  congr 1
  have e1 : ((bondsAt nbs p).map fun b => sigma L C S b * C.v b.j * (2 * (elong C b - thetaAt L C S nbs p * C.zeta b / 3) *
        (rate C d b - T' * C.zeta b / 3))).sum =
      2 * ((bondsAt nbs p).map fun b => sigma L C S b * C.v b.j * ((elong C b - thetaAt L C S nbs p * C.zeta b / 3) *
        (rate C d b - T' * C.zeta b / 3))).sum := by
    rw [← sum_scale]
    congr 1
    apply List.map_congr_left
    intro b _
    ring
  have e2 : ((bondsAt nbs p).map fun b => C.v b.j * pull L C S nbs (thetaAt L C S nbs) b * rate C d b).sum =
      pressAt L C S nbs (thetaAt L C S nbs) p * T' +
      2 * L.mu * (((bondsAt nbs p).map fun b => sigma L C S b * C.v b.j * elong C b * rate C d b).sum -
        thetaAt L C S nbs p / 3 * ((bondsAt nbs p).map fun b => sigma L C S b * C.v b.j * C.zeta b * rate C d b).sum) := by
    have : ∀ (f g : Bond → ℝ) (c : ℝ) (l : List Bond), (l.map f).sum - c * (l.map g).sum = (l.map fun b => f b - c * g b).sum := by
      intro f g c l
      induction l with
      | nil => simp
      | cons b l ih => simp only [List.map_cons, List.sum_cons]; rw [← ih]; ring
    rw [this, hT', ← sum_combine]
    congr 1
    apply List.map_congr_left
    intro b hb
    have hi : b.i = p := of_decide_eq_true (List.mem_filter.1 hb).2
    unfold pull
    rw [hi]
    ring
  have e3 : S.m p = ((bondsAt nbs p).map fun b => sigma L C S b * C.v b.j * C.zeta b ^ 2).sum := by
    rw [hm]
    congr 1
    apply List.map_congr_left
    intro b _
    ring
  rw [e1, e2, sum_expand, ← e3]
  unfold pressAt
  ring

/-- The energy changes at the rate at which work is done against the forces. -/
theorem energy_deriv {L : Law} {C : Config} {S : Setup} {nbs : List (List Nat)} {th theta : Nat → ℝ} {F : Nat → V3}
    (h : material L C S nbs.length (encode nbs) th = .ok (theta, F))
    (hm : ∀ p < nbs.length, S.m p = ((bondsAt nbs p).map fun b => sigma L C S b * C.zeta b ^ 2 * C.v b.j).sum)
    (d : Nat → V3) {N : Nat} (hN : Within nbs N) :
    HasDerivAt (fun s => ∑ p ∈ Finset.range nbs.length,
      pointEnergy L (shifted C d s) S nbs (thetaAt L (shifted C d s) S nbs) p) (-power C F d N) 0 := by
  obtain ⟨hth, _, hs⟩ := material_parts h
  have hb : ∀ b ∈ bondsOf nbs, C.dY b ≠ 0 := by
    obtain ⟨gs, h1, h2, _⟩ := hs
    intro b hb
    rw [← h1] at hb
    obtain ⟨x, hx, rfl⟩ := List.mem_map.1 hb
    exact (along_eq (h2 x hx)).1
  have hsum := HasDerivAt.fun_sum (u := Finset.range nbs.length) fun p hp =>
    point_deriv (L := L) (S := S) d p hb (hm p (Finset.mem_range.1 hp))
  refine hsum.congr_deriv ?_
  have hbi : ∀ b ∈ bondsOf nbs, b.i < nbs.length := by
    intro b hb'
    obtain ⟨ns, h1, _⟩ := mem_bondsOf hb'
    exact (List.getElem?_eq_some_iff.1 h1).1
  rw [power_of hs (bonds_within hN) d, neg_neg, sum_partition _ _ hbi]
  congr 1
  apply List.map_congr_left
  intro b hb'
  unfold pull pressAt
  rw [hth _ (hbi b hb')]

/-! ### Definedness -/

theorem material_defined {L : Law} {C : Config} (S : Setup) {nbs : List (List Nat)} (th : Nat → ℝ)
    (hx : ∀ b ∈ bondsOf nbs, C.x b.j ≠ C.x b.i) (hy : ∀ b ∈ bondsOf nbs, C.y b.j ≠ C.y b.i) :
    ∃ theta F, material L C S nbs.length (encode nbs) th = .ok (theta, F) := by
  unfold material
  rw [visited_encode]
  simp only
  rw [if_neg (by
    rintro ⟨b, hb, h0⟩
    exact hx b hb (sub_eq_zero.1 (len_eq_zero.1 h0)))]
  obtain ⟨F, hF⟩ := scatter_ok (vi := selfVol C) (vj := nbrVol C)
    (f := pairForce L C S (dilatationOf L C S (bondsOf nbs) nbs.length th)
      (pressureOf L C S (dilatationOf L C S (bondsOf nbs) nbs.length th) (bondsOf nbs))) (bs := bondsOf nbs) 0
    (fun b hb => ⟨_, along_ok (hy b hb) _⟩)
  rw [hF]
  exact ⟨_, _, rfl⟩

theorem storedEnergy_defined {L : Law} {C : Config} (S : Setup) {nbs : List (List Nat)} (theta U0 : Nat → ℝ)
    (hx : ∀ b ∈ bondsOf nbs, C.x b.j ≠ C.x b.i) :
    ∃ U, storedEnergy L C S theta nbs.length (encode nbs) U0 = .ok U := by
  unfold storedEnergy
  rw [visited_encode]
  simp only
  rw [if_neg (by
    rintro ⟨b, hb, h0⟩
    exact hx b hb (sub_eq_zero.1 (len_eq_zero.1 h0)))]
  exact ⟨_, rfl⟩

/-- A square matrix whose only null vector is zero is regular. -/
theorem det_ne_zero {k : Matrix (Fin 6) (Fin 6) ℝ} (h : ∀ w, k *ᵥ w = 0 → w = 0) : k.det ≠ 0 := by
  intro h0
  obtain ⟨w, hw, hk⟩ := Matrix.exists_mulVec_eq_zero_iff.2 h0
  exact hw (h w hk)

theorem sum_sq_zero {l : List (V3 × ℝ)} (hv : ∀ b ∈ l, 0 < b.2) (f : V3 × ℝ → ℝ)
    (h : (l.map fun b => f b ^ 2 * b.2).sum = 0) : ∀ b ∈ l, f b = 0 := by
  induction l with
  | nil => simp
  | cons c l ih =>
    rw [List.map_cons, List.sum_cons] at h
    have h1 : 0 ≤ (l.map fun b => f b ^ 2 * b.2).sum := by
      apply List.sum_nonneg
      intro x hx
      obtain ⟨b, hb, rfl⟩ := List.mem_map.1 hx
      exact mul_nonneg (sq_nonneg _) (hv b (List.mem_cons_of_mem _ hb)).le
    have hc := hv c List.mem_cons_self
    have h2 : 0 ≤ f c ^ 2 * c.2 := mul_nonneg (sq_nonneg _) hc.le
    intro b hb
    rcases List.mem_cons.1 hb with rfl | hb
    · have : f b ^ 2 * b.2 = 0 := by linarith
      exact pow_eq_zero_iff two_ne_zero |>.1 ((mul_eq_zero.1 this).resolve_right hc.ne')
    · exact ih (fun b hb => hv b (List.mem_cons_of_mem _ hb)) (by linarith) b hb

/-- A repaired matrix of scalar products is regular if no combination of the modes that stay vanishes on all bonds. -/
theorem repaired_regular {l : List (V3 × ℝ)} (hv : ∀ b ∈ l, 0 < b.2) (e : V3 × ℝ → Fin 6 → ℝ) {P : Fin 6 → Prop}
    {k : Matrix (Fin 6) (Fin 6) ℝ}
    (hk : ∀ a b, k a b = if P a ∨ P b then (if a = b then 1 else 0) else (l.map fun c => e c a * e c b * c.2).sum)
    (hspan : ∀ w : Fin 6 → ℝ, (∀ i, P i → w i = 0) → (∀ b ∈ l, ∑ i, e b i * w i = 0) → w = 0) : k.det ≠ 0 := by
  apply det_ne_zero
  intro w hw
  obtain ⟨h1, h2⟩ := repaired (k0 := fun a b => (l.map fun c => e c a * e c b * c.2).sum) (r0 := 0) (P := P) hk
    (fun a => by simp) hw
  apply hspan w h1
  have h3 : ∑ i, w i * ∑ j, (l.map fun c => e c i * e c j * c.2).sum * w j = 0 := by
    apply Finset.sum_eq_zero
    intro i _
    by_cases hi : P i
    · rw [h1 i hi, zero_mul]
    · rw [h2 i hi, Pi.zero_apply, mul_zero]
  apply sum_sq_zero hv
  rw [← h3]
  clear h3 h1 h2 hw hspan hk hv
  induction l with
  | nil => simp
  | cons c l ih =>
    simp only [List.map_cons, List.sum_cons, add_mul, Finset.sum_add_distrib, mul_add]
    rw [ih]
    congr 1
    rw [sq, Finset.sum_mul_sum, Finset.sum_mul]
    apply Finset.sum_congr rfl
    intro i _
    rw [Finset.sum_mul, Finset.mul_sum]
    apply Finset.sum_congr rfl
    intro j _
    ring

theorem solve_defined {k : Matrix (Fin 6) (Fin 6) ℝ} (h : k.det ≠ 0) (r : Fin 6 → ℝ) : ∃ w, solve k r = .ok w :=
  ⟨_, if_neg h⟩

theorem multipliersLoop_ok {L : Law} {C : Config} {bonds : List Bond} {ps : List Nat}
    (h : ∀ p ∈ ps, ∃ r, multipliersOf L C.horizon ((bonds.filter fun b => b.i = p).map fun b => (xi C b, C.v b.j)) = .ok r)
    (S : Setup) : ∃ S', multipliersLoop L C bonds ps S = .ok S' := by
  induction ps generalizing S with
  | nil => exact ⟨S, rfl⟩
  | cons p ps ih =>
    obtain ⟨⟨w, t⟩, hr⟩ := h p List.mem_cons_self
    rw [multipliersLoop, hr]
    exact ih (fun q hq => h q (List.mem_cons_of_mem _ hq)) _

end Verif.Pals
