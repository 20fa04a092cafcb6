import Verif.Energy.Spec
import Verif.Mech.FrameProps
import Verif.Mech.Plastic
import Mathlib.Analysis.SpecialFunctions.Sqrt
import Mathlib.Tactic.FieldSimp
import Mathlib.Tactic.LinearCombination

noncomputable section

namespace Verif.Energy

open Verif Verif.Neigh Verif.Mech
open scoped Classical

/-! ### Closed forms -/

/-- The bonds of a point. -/
abbrev bondsAt (nbs : List (List Nat)) (p : Nat) : List Bond :=
  (bondsOf nbs).filter fun b => b.i = p

/-- Fraction that is intact, times influence and volume. -/
def kap (C : Config) (b : Bond) : ℝ := (1 - C.damage b.b) * C.om b * C.v b.j

theorem dilatationLoop_eq {C : Config} {bs : List Bond} {th theta : Nat → ℝ}
    (h : dilatationLoop C bs th = .ok theta) (p : Nat) :
    theta p = th p + ((bs.filter fun b => b.i = p).map fun b =>
      3 * kap C b * C.zeta b * C.ext b / C.m p).sum := by
  induction bs generalizing th with
  | nil => cases h; simp
  | cons b bs ih =>
    rw [dilatationLoop] at h
    unfold dilatationTerm at h
    split at h
    · next t ht =>
      split at ht
      · cases ht
      · cases ht
        rw [ih h]
        by_cases hb : b.i = p
        · subst hb
          rw [Function.update_self, List.filter_cons_of_pos (by simp), List.map_cons, List.sum_cons]
          unfold kap
          ring
        · rw [Function.update_of_ne (fun e => hb e.symm), List.filter_cons_of_neg (by simpa using hb)]
    · cases h
    · cases h

theorem dilatation_eq {C : Config} {nbs : List (List Nat)} {th theta : Nat → ℝ}
    (h : dilatation C nbs.length (encode nbs) th = .ok theta) {p : Nat} (hp : p < nbs.length) :
    theta p = ((bondsAt nbs p).map fun b => 3 * kap C b * C.zeta b * C.ext b / C.m p).sum := by
  unfold dilatation at h
  rw [visited_encode] at h
  rw [dilatationLoop_eq h p, if_pos hp, zero_add]

theorem weighted_eq {C : Config} {nbs : List (List Nat)} (h : Weighted C nbs) {p : Nat}
    (hp : p < nbs.length) :
    C.m p = ((bondsAt nbs p).map fun b => C.om b * C.zeta b ^ 2 * C.v b.j).sum := by
  obtain ⟨m0, hm⟩ := h
  obtain ⟨m', h1, h2, _⟩ := C22_stored C nbs m0
  rw [h1] at hm
  cases hm
  have hns : nbs[p]? = some nbs[p] := List.getElem?_eq_getElem hp
  rw [h2 p _ hns, weightedVolumeAt_eq, bondsAt, filter_bondsOf nbs hns, List.map_map]
  have : ∀ (ns : List Nat) (k : Nat) (g : Nat → ℝ), (ns.map g).sum =
      ((ns.zipIdx k).map (fun x => g x.1)).sum := by
    intro ns
    induction ns with
    | nil => intro k g; rfl
    | cons a ns ih => intro k g; rw [List.zipIdx_cons, List.map_cons, List.map_cons, List.sum_cons,
        List.sum_cons, ih (k + 1)]
  rw [this _ 0]
  rfl

theorem deviatoric_eq (C : Config) (theta : Nat → ℝ) (b : Bond) :
    deviatoric C theta b = C.ext b - theta b.i * C.zeta b / 3 := by
  unfold deviatoric currentDistance Config.ext
  cases C.thermal with
  | none => rfl
  | some q => simp only; ring

theorem energySum_eq (C : Config) (theta : Nat → ℝ) (bs : List Bond) :
    energySum C theta bs = (bs.map fun b =>
      kap C b * (C.ext b - theta b.i * C.zeta b / 3) ^ 2).sum := by
  have key : ∀ (bs : List Bond) (a : ℝ), bs.foldl (fun temp b => temp + energyTerm C theta b) a =
      a + (bs.map fun b => kap C b * (C.ext b - theta b.i * C.zeta b / 3) ^ 2).sum := by
    intro bs
    induction bs with
    | nil => intro a; simp
    | cons b bs ih =>
      intro a
      rw [List.foldl_cons, ih, List.map_cons, List.sum_cons]
      unfold energyTerm kap
      rw [deviatoric_eq]
      ring
  rw [energySum, key, zero_add]

theorem densityLoop_eq {C : Config} {K mu : ℝ} {theta : Nat → ℝ} {bonds : List Bond} {ps : List Nat}
    {W W' : Nat → ℝ} (h : densityLoop C K mu theta bonds ps W = .ok W') :
    (∀ p ∈ ps, densityAt C K mu theta p (bonds.filter fun b => b.i = p) = .ok (W' p)) ∧
    ∀ p ∉ ps, W' p = W p := by
  induction ps generalizing W with
  | nil => cases h; simp
  | cons q ps ih =>
    rw [densityLoop] at h
    obtain ⟨w, hw, h⟩ := Outcome.bind_eq_ok.1 h
    obtain ⟨h1, h2⟩ := ih h
    constructor
    · intro p hp
      by_cases hq : p ∈ ps
      · exact h1 p hq
      · have : p = q := by simpa [hq] using hp
        subst this
        rw [h2 p hq, Function.update_self, hw]
    · intro p hp
      have : p ∉ ps ∧ p ≠ q := by
        simp only [List.mem_cons, not_or] at hp
        exact ⟨hp.2, hp.1⟩
      rw [h2 p this.1, Function.update_of_ne this.2]

theorem densityLoop_ok {C : Config} {K mu : ℝ} {theta : Nat → ℝ} {bonds : List Bond} {ps : List Nat}
    (hm : ∀ p ∈ ps, C.m p ≠ 0) (W : Nat → ℝ) :
    ∃ W', densityLoop C K mu theta bonds ps W = .ok W' := by
  induction ps generalizing W with
  | nil => exact ⟨W, rfl⟩
  | cons q ps ih =>
    obtain ⟨W', h⟩ := ih (fun p hp => hm p (List.mem_cons_of_mem _ hp)) (Function.update W q _)
    exact ⟨W', Outcome.bind_eq_ok.2 ⟨_, if_neg (hm q List.mem_cons_self), h⟩⟩

/-- The energy of a point. -/
def pointEnergy (C : Config) (K mu : ℝ) (nbs : List (List Nat)) (theta : Nat → ℝ) (p : Nat) : ℝ :=
  (1 / 2 * K * theta p ^ 2 + 1 / 2 * (15 * mu / C.m p) * ((bondsAt nbs p).map fun b =>
    kap C b * (C.ext b - theta p * C.zeta b / 3) ^ 2).sum) * C.v p

theorem storedEnergy_eq {C : Config} {K mu : ℝ} {theta W U0 U : Nat → ℝ} {nbs : List (List Nat)}
    (h : storedEnergy C K mu theta nbs.length (encode nbs) W U0 = .ok U) {p : Nat}
    (hp : p < nbs.length) : C.m p ≠ 0 ∧ U p = pointEnergy C K mu nbs theta p := by
  obtain ⟨W', hW, h⟩ := Outcome.bind_eq_ok.1 h
  cases h
  rw [energyDensity, visited_encode, Outcome.ok_bind] at hW
  have := (densityLoop_eq hW).1 p (List.mem_range.2 hp)
  unfold densityAt at this
  split at this
  · cases this
  · next hm =>
    refine ⟨hm, ?_⟩
    rw [timesVolume, if_pos hp, ← Outcome.ok.inj this, energySum_eq, pointEnergy]
    have e : ((bondsAt nbs p).map fun b => kap C b * (C.ext b - theta b.i * C.zeta b / 3) ^ 2) =
        (bondsAt nbs p).map fun b => kap C b * (C.ext b - theta p * C.zeta b / 3) ^ 2 := by
      apply List.map_congr_left
      intro b hb
      rw [of_decide_eq_true (List.mem_filter.1 hb).2]
    rw [← e, show (0.5 : ℝ) = 1 / 2 by norm_num]
    ring

theorem storedEnergy_ok {C : Config} (K mu : ℝ) (theta W U0 : Nat → ℝ) {nbs : List (List Nat)}
    (hm : ∀ p < nbs.length, C.m p ≠ 0) :
    ∃ U, storedEnergy C K mu theta nbs.length (encode nbs) W U0 = .ok U := by
  obtain ⟨W', hW⟩ := densityLoop_ok (K := K) (mu := mu) (theta := theta) (bonds := bondsOf nbs)
    (fun p hp => hm p (List.mem_range.1 hp)) W
  refine ⟨_, Outcome.bind_eq_ok.2 ⟨W', ?_, rfl⟩⟩
  rw [energyDensity, visited_encode, Outcome.ok_bind, hW]

theorem energy_defined {C : Config} (K mu : ℝ) {nbs : List (List Nat)}
    (hm : ∀ p < nbs.length, C.m p ≠ 0) : ∃ E, EnergyIs C K mu nbs E := by
  obtain ⟨theta, ht⟩ : ∃ theta, dilatation C nbs.length (encode nbs) (fun _ => 0) = .ok theta := by
    unfold dilatation
    rw [visited_encode]
    refine dilatationLoop_ok (fun b hb => ?_) _
    obtain ⟨ns, h1, _⟩ := mem_bondsOf hb
    exact hm _ (List.getElem?_eq_some_iff.1 h1).1
  obtain ⟨U, hU⟩ := storedEnergy_ok K mu theta (fun _ => 0) (fun _ => 0) hm
  exact ⟨_, _, theta, _, _, U, ht, hU, rfl⟩

/-- The dilatation of a point. -/
def theta' (C : Config) (nbs : List (List Nat)) (p : Nat) : ℝ :=
  ((bondsAt nbs p).map fun b => 3 * kap C b * C.zeta b * C.ext b / C.m p).sum

theorem energyIs_eq {C : Config} {K mu : ℝ} {nbs : List (List Nat)} {E : ℝ}
    (h : EnergyIs C K mu nbs E) :
    E = ∑ p ∈ Finset.range nbs.length, pointEnergy C K mu nbs (theta' C nbs) p := by
  obtain ⟨th, theta, W, U0, U, h1, h2, rfl⟩ := h
  apply Finset.sum_congr rfl
  intro p hp
  have hp := Finset.mem_range.1 hp
  rw [(storedEnergy_eq h2 hp).2]
  unfold pointEnergy
  rw [dilatation_eq h1 hp]
  rfl

/-! ### Derivatives -/

theorem len_deriv (a d : V3) (h : len a ≠ 0) :
    HasDerivAt (fun s : ℝ => len (a + s • d)) ((a ⬝ᵥ d) / len a) 0 := by
  have hq : ∀ c : Fin 3, HasDerivAt (fun s : ℝ => a c + s * d c) (d c) 0 := by
    intro c
    simpa using ((hasDerivAt_id (0 : ℝ)).mul_const (d c)).const_add (a c)
  have hs := (((hq 0).mul (hq 0)).add ((hq 1).mul (hq 1))).add ((hq 2).mul (hq 2))
  have h0 : a 0 * a 0 + a 1 * a 1 + a 2 * a 2 ≠ 0 := by
    intro h0
    apply h
    rw [len, h0, Real.sqrt_zero]
  have := hs.sqrt (by simpa using h0)
  refine this.congr_deriv ?_
  simp only [zero_mul, add_zero, dotProduct, Fin.sum_univ_three, Pi.add_apply, Pi.mul_apply]
  rw [show Real.sqrt (a 0 * a 0 + a 1 * a 1 + a 2 * a 2) = len a from rfl]
  field_simp
  ring

theorem list_deriv {l : List Bond} {f : Bond → ℝ → ℝ} {f' : Bond → ℝ} {x : ℝ}
    (h : ∀ b ∈ l, HasDerivAt (f b) (f' b) x) :
    HasDerivAt (fun s => (l.map fun b => f b s).sum) (l.map f').sum x := by
  induction l with
  | nil => simpa using hasDerivAt_const x (0 : ℝ)
  | cons b l ih =>
    simp only [List.map_cons, List.sum_cons]
    exact (h b List.mem_cons_self).add (ih fun c hc => h c (List.mem_cons_of_mem _ hc))

/-- The rate at which a bond becomes longer. -/
def rate (C : Config) (d : Nat → V3) (b : Bond) : ℝ := (C.yd b ⬝ᵥ (d b.j - d b.i)) / C.dY b

theorem ext_deriv (C : Config) (d : Nat → V3) (b : Bond) (h : C.dY b ≠ 0) :
    HasDerivAt (fun s => (shifted C d s).ext b) (rate C d b) 0 := by
  have hl := len_deriv (C.yd b) (d b.j - d b.i) h
  have e : ∀ s : ℝ, (shifted C d s).dY b = len (C.yd b + s • (d b.j - d b.i)) := by
    intro s
    unfold Config.dY Config.yd shifted
    congr 1
    simp only
    module
  unfold Config.ext
  have hth : ∀ s, (shifted C d s).thermal = C.thermal := fun _ => rfl
  have hz : ∀ s, (shifted C d s).zeta b = C.zeta b := fun _ => rfl
  simp only [hth, hz, e]
  cases C.thermal with
  | none => exact hl.sub_const _
  | some q => exact (hl.sub_const _).sub_const _

/-- The rate of the dilatation. -/
def thetaRate (C : Config) (nbs : List (List Nat)) (d : Nat → V3) (p : Nat) : ℝ :=
  ((bondsAt nbs p).map fun b => 3 * kap C b * C.zeta b * rate C d b / C.m p).sum

theorem theta_deriv {C : Config} {nbs : List (List Nat)} (d : Nat → V3) (p : Nat)
    (h : ∀ b ∈ bondsOf nbs, C.dY b ≠ 0) :
    HasDerivAt (fun s => theta' (shifted C d s) nbs p) (thetaRate C nbs d p) 0 := by
  unfold theta' thetaRate
  refine list_deriv fun b hb => ?_
  have := ext_deriv C d b (h b (List.mem_filter.1 hb).1)
  exact (this.const_mul (3 * kap C b * C.zeta b)).div_const (C.m p)

/-- The weighted volume of the intact bonds. -/
def intactVolume (C : Config) (nbs : List (List Nat)) (p : Nat) : ℝ :=
  ((bondsAt nbs p).map fun b => kap C b * C.zeta b ^ 2).sum

/-- The size of the force of a bond. -/
def tension (C : Config) (K mu : ℝ) (theta : Nat → ℝ) (b : Bond) : ℝ :=
  (1 - C.damage b.b) * (C.om b * theta b.i * (3 * K / C.m b.i - 15 * mu / C.m b.i / 3) * C.zeta b +
    (1 - C.damage b.b) * C.om b * (15 * mu / C.m b.i) * C.ext b)

theorem sum_expand (l : List Bond) (k e z r : Bond → ℝ) (a a' : ℝ) :
    (l.map fun b => k b * ((e b - a * z b / 3) * (r b - a' * z b / 3))).sum =
      (l.map fun b => k b * e b * r b).sum - a / 3 * (l.map fun b => k b * z b * r b).sum -
      a' / 3 * (l.map fun b => k b * z b * e b).sum +
      a * a' / 9 * (l.map fun b => k b * z b ^ 2).sum := by
  induction l with
  | nil => simp
  | cons b l ih =>
    simp only [List.map_cons, List.sum_cons]
    rw [ih]
    ring

theorem sum_scale (l : List Bond) (f : Bond → ℝ) (c : ℝ) :
    (l.map fun b => c * f b).sum = c * (l.map f).sum := by
  induction l with
  | nil => simp
  | cons b l ih => simp only [List.map_cons, List.sum_cons]; rw [ih]; ring

theorem sum_combine (l : List Bond) (f g : Bond → ℝ) (c c' : ℝ) :
    (l.map fun b => c * f b + c' * g b).sum = c * (l.map f).sum + c' * (l.map g).sum := by
  induction l with
  | nil => simp
  | cons b l ih => simp only [List.map_cons, List.sum_cons]; rw [ih]; ring

theorem point_deriv {C : Config} (K mu : ℝ) {nbs : List (List Nat)} (d : Nat → V3) (p : Nat)
    (h : ∀ b ∈ bondsOf nbs, C.dY b ≠ 0) (hm : C.m p ≠ 0)
    (hdam : ∀ b ∈ bondsAt nbs p, C.damage b.b = 0 ∨ C.damage b.b = 1) :
    HasDerivAt (fun s => pointEnergy (shifted C d s) K mu nbs (theta' (shifted C d s) nbs) p)
      ((((bondsAt nbs p).map fun b => C.v b.j * tension C K mu (theta' C nbs) b * rate C d b).sum -
        15 * mu / C.m p / 9 * theta' C nbs p * thetaRate C nbs d p *
          (C.m p - intactVolume C nbs p)) * C.v p) 0 := by
  have h0 : shifted C d 0 = C := by
    unfold shifted
    simp
  have hth := theta_deriv d p h
  have hsum : HasDerivAt (fun s => ((bondsAt nbs p).map fun b =>
      kap C b * ((shifted C d s).ext b - theta' (shifted C d s) nbs p * C.zeta b / 3) ^ 2).sum)
      ((bondsAt nbs p).map fun b => kap C b * (2 * (C.ext b - theta' C nbs p * C.zeta b / 3) *
        (rate C d b - thetaRate C nbs d p * C.zeta b / 3))).sum 0 := by
    refine list_deriv fun b hb => ?_
    have he := ext_deriv C d b (h b (List.mem_filter.1 hb).1)
    have := ((he.sub ((hth.mul_const (C.zeta b)).div_const 3)).pow 2).const_mul (kap C b)
    refine this.congr_deriv ?_
    simp only [Pi.sub_apply, h0]
    norm_num
  have hW := ((((hth.pow 2).const_mul (1 / 2 * K)).add
    (hsum.const_mul (1 / 2 * (15 * mu / C.m p)))).mul_const (C.v p))
  refine hW.congr_deriv ?_
  simp only [h0]
  congr 1
  have e1 : ((bondsAt nbs p).map fun b => kap C b * (2 * (C.ext b - theta' C nbs p * C.zeta b / 3) *
        (rate C d b - thetaRate C nbs d p * C.zeta b / 3))).sum =
      2 * ((bondsAt nbs p).map fun b => kap C b * ((C.ext b - theta' C nbs p * C.zeta b / 3) *
        (rate C d b - thetaRate C nbs d p * C.zeta b / 3))).sum := by
    rw [← sum_scale]
    congr 1
    apply List.map_congr_left
    intro b _
    ring
  have e2 : ((bondsAt nbs p).map fun b => C.v b.j * tension C K mu (theta' C nbs) b *
      rate C d b).sum = (theta' C nbs p * (3 * K / C.m p - 15 * mu / C.m p / 3)) *
        ((bondsAt nbs p).map fun b => kap C b * C.zeta b * rate C d b).sum +
      15 * mu / C.m p * ((bondsAt nbs p).map fun b => kap C b * C.ext b * rate C d b).sum := by
    rw [← sum_combine]
    congr 1
    apply List.map_congr_left
    intro b hb
    have hi : b.i = p := of_decide_eq_true (List.mem_filter.1 hb).2
    unfold tension kap
    rw [hi]
    rcases hdam b hb with hd | hd <;> rw [hd] <;> ring
  have e3 : thetaRate C nbs d p = 3 / C.m p *
      ((bondsAt nbs p).map fun b => kap C b * C.zeta b * rate C d b).sum := by
    unfold thetaRate
    rw [← sum_scale]
    congr 1
    apply List.map_congr_left
    intro b _
    ring
  have e4 : theta' C nbs p = 3 / C.m p *
      ((bondsAt nbs p).map fun b => kap C b * C.zeta b * C.ext b).sum := by
    unfold theta'
    rw [← sum_scale]
    congr 1
    apply List.map_congr_left
    intro b _
    ring
  rw [e1, e2, sum_expand]
  rw [show ((bondsAt nbs p).map fun b => kap C b * C.zeta b ^ 2).sum = intactVolume C nbs p from rfl]
  generalize ((bondsAt nbs p).map fun b => kap C b * C.zeta b * rate C d b).sum = B at *
  generalize ((bondsAt nbs p).map fun b => kap C b * C.zeta b * C.ext b).sum = D at *
  generalize ((bondsAt nbs p).map fun b => kap C b * C.ext b * rate C d b).sum = A at *
  generalize intactVolume C nbs p = M at *
  generalize thetaRate C nbs d p = T' at *
  generalize theta' C nbs p = T at *
  have hB : B = C.m p * T' / 3 := by rw [e3]; field_simp
  have hD : D = C.m p * T / 3 := by rw [e4]; field_simp
  rw [hB, hD]
  field_simp
  ring

/-! ### The power of the forces -/

theorem sum_scattered_gen {vi vj : Bond → ℝ} {gs : List (Bond × V3)} {F R : Nat → V3} (N : Nat)
    (L : Nat → V3 →ₗ[ℝ] ℝ) (h3 : ∀ k, R k = F k + (gs.map (pull vi vj k)).sum)
    (hN : ∀ x ∈ gs, x.1.i < N ∧ x.1.j < N) :
    ∑ k ∈ Finset.range N, L k (R k) = ∑ k ∈ Finset.range N, L k (F k) +
      (gs.map fun x => vj x.1 * L x.1.i x.2 - vi x.1 * L x.1.j x.2).sum := by
  have key : ∑ k ∈ Finset.range N, L k ((gs.map (pull vi vj k)).sum) =
      (gs.map fun x => vj x.1 * L x.1.i x.2 - vi x.1 * L x.1.j x.2).sum := by
    clear h3
    induction gs with
    | nil => simp
    | cons x gs ih =>
      simp only [List.map_cons, List.sum_cons, map_add, Finset.sum_add_distrib]
      rw [ih fun y hy => hN y (List.mem_cons_of_mem _ hy)]
      have hb := hN x List.mem_cons_self
      congr 1
      have e : ∀ k, L k (pull vi vj k x) =
          (if x.1.i = k then vj x.1 * L x.1.i x.2 else 0) -
            (if x.1.j = k then vi x.1 * L x.1.j x.2 else 0) := by
        intro k
        unfold pull
        rw [map_sub]
        congr 1
        · split
          · next h => subst h; rw [map_smul, smul_eq_mul]
          · rw [map_zero]
        · split
          · next h => subst h; rw [map_smul, smul_eq_mul]
          · rw [map_zero]
      simp only [e, Finset.sum_sub_distrib, Finset.sum_ite_eq, Finset.mem_range, hb.1, hb.2, if_true]
  rw [← key, ← Finset.sum_add_distrib]
  apply Finset.sum_congr rfl
  intro k _
  rw [h3 k, map_add]

/-- Taking the inner product with a vector. -/
def dotL (w : V3) : V3 →ₗ[ℝ] ℝ where
  toFun x := x ⬝ᵥ w
  map_add' x y := add_dotProduct x y w
  map_smul' c x := smul_dotProduct c x w

theorem elasticBond_eq {C : Config} {K mu : ℝ} {theta : Nat → ℝ} {b : Bond} {g : V3}
    (h : elasticBond C K mu theta b = .ok g) :
    C.m b.i ≠ 0 ∧ C.dY b ≠ 0 ∧ g = (tension C K mu theta b / C.dY b) • C.yd b := by
  unfold elasticBond at h
  split at h
  · cases h
  · next hm =>
    unfold along at h
    split at h
    · cases h
    · next hd =>
      refine ⟨hm, hd, ?_⟩
      rw [← Outcome.ok.inj h]
      funext c
      simp only [Pi.smul_apply, smul_eq_mul]
      unfold tension
      ring

theorem sum_partition (l : List Bond) (n : Nat) (hl : ∀ b ∈ l, b.i < n) (f : Bond → ℝ)
    (c : Nat → ℝ) : ∑ p ∈ Finset.range n, ((l.filter fun b => b.i = p).map f).sum * c p =
      (l.map fun b => f b * c b.i).sum := by
  induction l with
  | nil => simp
  | cons b l ih =>
    rw [List.map_cons, List.sum_cons, ← ih fun b' hb' => hl b' (List.mem_cons_of_mem _ hb')]
    have e : ∀ p, (((b :: l).filter fun b => b.i = p).map f).sum * c p =
        (if b.i = p then f b * c b.i else 0) + ((l.filter fun b => b.i = p).map f).sum * c p := by
      intro p
      by_cases h : b.i = p
      · rw [List.filter_cons_of_pos (by simpa using h), if_pos h, List.map_cons, List.sum_cons, h]
        ring
      · rw [List.filter_cons_of_neg (by simpa using h), if_neg h, zero_add]
    simp only [e, Finset.sum_add_distrib]
    rw [Finset.sum_ite_eq, if_pos (Finset.mem_range.2 (hl b List.mem_cons_self))]

/-- Everything that is known of the forces computed. -/
theorem elastic_parts {C : Config} {K mu : ℝ} {nbs : List (List Nat)} {th theta : Nat → ℝ}
    {F : Nat → V3} (h : elasticMaterial C K mu nbs.length (encode nbs) th = .ok (theta, F)) :
    dilatation C nbs.length (encode nbs) th = .ok theta ∧
    ∀ b ∈ bondsOf nbs, C.m b.i ≠ 0 ∧ C.dY b ≠ 0 := by
  have hs := elastic_scattered h
  unfold elasticMaterial at h
  cases hd : dilatation C nbs.length (encode nbs) th with
  | ok t =>
    rw [hd] at h
    simp only at h
    cases he : elasticForce C K mu t nbs.length (encode nbs) 0 with
    | ok G =>
      rw [he] at h
      cases h
      refine ⟨rfl, ?_⟩
      obtain ⟨gs, h1, h2, _⟩ := hs
      intro b hb
      rw [← h1] at hb
      obtain ⟨x, hx, rfl⟩ := List.mem_map.1 hb
      exact ⟨(elasticBond_eq (h2 x hx)).1, (elasticBond_eq (h2 x hx)).2.1⟩
    | fail e => rw [he] at h; cases h
    | ub => rw [he] at h; cases h
  | fail e => rw [hd] at h; cases h
  | ub => rw [hd] at h; cases h

theorem power_eq {C : Config} {K mu : ℝ} {nbs : List (List Nat)} {th theta : Nat → ℝ}
    {F : Nat → V3} (h : elasticMaterial C K mu nbs.length (encode nbs) th = .ok (theta, F))
    (d : Nat → V3) {N : Nat} (hN : Within nbs N) :
    power C F d N = -((bondsOf nbs).map fun b =>
      C.v b.j * tension C K mu theta b * rate C d b * C.v b.i).sum := by
  obtain ⟨gs, h1, h2, h3⟩ := elastic_scattered h
  have hw := bonds_within hN
  have h4 := sum_scattered_gen N (fun k => C.v k • dotL (d k)) h3 (fun x hx => by
    have : x.1 ∈ bondsOf nbs := by rw [← h1]; exact List.mem_map_of_mem hx
    exact hw _ this)
  have hpow : power C F d N = ∑ k ∈ Finset.range N, (C.v k • dotL (d k)) (F k) := rfl
  rw [hpow, h4, ← h1, List.map_map]
  simp only [Pi.zero_apply, map_zero, Finset.sum_const_zero, zero_add]
  rw [← neg_one_mul, ← List.sum_map_mul_left]
  congr 1
  apply List.map_congr_left
  intro x hx
  obtain ⟨hm, hd, hg⟩ := elasticBond_eq (h2 x hx)
  have e1 : ∀ w : V3, dotL w x.2 = tension C K mu theta x.1 / C.dY x.1 * (C.yd x.1 ⬝ᵥ w) := by
    intro w
    rw [hg, map_smul, smul_eq_mul]
    rfl
  have ej : nbrVol C x.1 = C.v x.1.j := rfl
  have ei : selfVol C x.1 = C.v x.1.i := rfl
  simp only [Function.comp, LinearMap.smul_apply, e1, smul_eq_mul, rate, dotProduct_sub, ei, ej]
  field_simp
  ring

/-- The derivative of the energy, for bonds that are intact or broken. -/
theorem energy_deriv {C : Config} {K mu : ℝ} {nbs : List (List Nat)} {th theta : Nat → ℝ}
    {F : Nat → V3} (h : elasticMaterial C K mu nbs.length (encode nbs) th = .ok (theta, F))
    (hib : ∀ b ∈ bondsOf nbs, C.damage b.b = 0 ∨ C.damage b.b = 1) (d : Nat → V3) {N : Nat}
    (hN : Within nbs N) {E : ℝ → ℝ} (hE : ∀ s, EnergyIs (shifted C d s) K mu nbs (E s)) :
    HasDerivAt E (-power C F d N - ∑ p ∈ Finset.range nbs.length,
      15 * mu / C.m p / 9 * theta p * thetaRate C nbs d p *
        (C.m p - intactVolume C nbs p) * C.v p) 0 := by
  obtain ⟨hth, hb⟩ := elastic_parts h
  have hm : ∀ p < nbs.length, C.m p ≠ 0 := by
    intro p hp
    obtain ⟨_, _, _, _, _, _, h2, _⟩ := hE 0
    exact (storedEnergy_eq h2 hp).1
  have hEs : E = fun s => ∑ p ∈ Finset.range nbs.length,
      pointEnergy (shifted C d s) K mu nbs (theta' (shifted C d s) nbs) p := by
    funext s
    exact energyIs_eq (hE s)
  rw [hEs]
  have hsum := HasDerivAt.fun_sum (u := Finset.range nbs.length) fun p hp =>
    point_deriv K mu d p (fun b hb' => (hb b hb').2) (hm p (Finset.mem_range.1 hp))
      (fun b hb' => hib b (List.mem_filter.1 hb').1)
  refine hsum.congr_deriv ?_
  have ht : ∀ p < nbs.length, theta' C nbs p = theta p := fun p hp => (dilatation_eq hth hp).symm
  have hbi : ∀ b ∈ bondsOf nbs, b.i < nbs.length := by
    intro b hb'
    obtain ⟨ns, h1, _⟩ := mem_bondsOf hb'
    exact (List.getElem?_eq_some_iff.1 h1).1
  rw [power_eq h d hN, neg_neg]
  simp only [sub_mul, Finset.sum_sub_distrib]
  congr 1
  · rw [sum_partition _ _ hbi]
    congr 1
    apply List.map_congr_left
    intro b hb'
    unfold tension
    rw [ht _ (hbi b hb')]
  · apply Finset.sum_congr rfl
    intro p hp
    rw [ht p (Finset.mem_range.1 hp)]

/-! ### Sign -/

theorem list_nonneg {l : List Bond} {f : Bond → ℝ} (h : ∀ b ∈ l, 0 ≤ f b) : 0 ≤ (l.map f).sum := by
  apply List.sum_nonneg
  intro x hx
  obtain ⟨b, hb, rfl⟩ := List.mem_map.1 hx
  exact h b hb

theorem list_zero {l : List Bond} {f : Bond → ℝ} (h : ∀ b ∈ l, 0 ≤ f b) (h0 : (l.map f).sum = 0) :
    ∀ b ∈ l, f b = 0 := by
  induction l with
  | nil => simp
  | cons c l ih =>
    rw [List.map_cons, List.sum_cons] at h0
    have h1 := h c List.mem_cons_self
    have h2 := list_nonneg fun b hb => h b (List.mem_cons_of_mem c hb)
    intro b hb
    rcases List.mem_cons.1 hb with rfl | hb
    · linarith
    · exact ih (fun b hb => h b (List.mem_cons_of_mem c hb)) (by linarith) b hb

theorem kap_nonneg {C : Config} {K mu : ℝ} {nbs : List (List Nat)} (h : Admissible C K mu nbs)
    (b : Bond) : 0 ≤ kap C b :=
  mul_nonneg (mul_nonneg (sub_nonneg.2 (h.damage _)) (h.influence _ _)) (h.volume _).le

theorem pointEnergy_nonneg {C : Config} {K mu : ℝ} {nbs : List (List Nat)}
    (h : Admissible C K mu nbs) (theta : Nat → ℝ) {p : Nat} (hp : p < nbs.length) :
    0 ≤ pointEnergy C K mu nbs theta p := by
  have hm := h.weighted p hp
  have hS := list_nonneg (l := bondsAt nbs p)
    (f := fun b => kap C b * (C.ext b - theta p * C.zeta b / 3) ^ 2)
    fun b _ => mul_nonneg (kap_nonneg h b) (sq_nonneg _)
  have hK := h.bulk
  have hmu := h.shear
  have hv := h.volume p
  unfold pointEnergy
  positivity

theorem pointEnergy_zero {C : Config} {K mu : ℝ} {nbs : List (List Nat)}
    (h : Admissible C K mu nbs) (theta : Nat → ℝ) {p : Nat} (hp : p < nbs.length)
    (h0 : pointEnergy C K mu nbs theta p = 0) :
    ∀ b ∈ bondsAt nbs p, kap C b * C.ext b ^ 2 = 0 := by
  have hm := h.weighted p hp
  have hK := h.bulk
  have hmu := h.shear
  have hv := h.volume p
  have hS := list_nonneg (l := bondsAt nbs p)
    (f := fun b => kap C b * (C.ext b - theta p * C.zeta b / 3) ^ 2)
    fun b _ => mul_nonneg (kap_nonneg h b) (sq_nonneg _)
  unfold pointEnergy at h0
  have h1 := (mul_eq_zero.1 h0).resolve_right hv.ne'
  have c1 : 0 ≤ 1 / 2 * K * theta p ^ 2 := by positivity
  have c2 : 0 < 1 / 2 * (15 * mu / C.m p) := by positivity
  have c3 := mul_nonneg c2.le hS
  have z1 : 1 / 2 * K * theta p ^ 2 = 0 := by linarith
  have z2 : 1 / 2 * (15 * mu / C.m p) * ((bondsAt nbs p).map fun b =>
    kap C b * (C.ext b - theta p * C.zeta b / 3) ^ 2).sum = 0 := by linarith
  have t0 : theta p = 0 := by
    have : (1 / 2 * K) ≠ 0 := by positivity
    exact pow_eq_zero_iff (two_ne_zero) |>.1 ((mul_eq_zero.1 z1).resolve_left this)
  have z3 := (mul_eq_zero.1 z2).resolve_left c2.ne'
  intro b hb
  have := list_zero (fun b _ => mul_nonneg (kap_nonneg h b) (sq_nonneg _)) z3 b hb
  rw [t0] at this
  simpa using this

theorem mem_bonds {nbs : List (List Nat)} {p t j : Nat} {ns : List Nat} (h1 : nbs[p]? = some ns)
    (h2 : ns[t]? = some j) : (⟨p, j, bondPos nbs p t⟩ : Bond) ∈ bondsAt nbs p := by
  rw [bondsAt, filter_bondsOf nbs h1]
  refine List.mem_map.2 ⟨(j, t), ?_, rfl⟩
  rw [List.mem_zipIdx_iff_getElem?]
  exact h2

end Verif.Energy
