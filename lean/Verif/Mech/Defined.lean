import Verif.Mech.Momentum
import Mathlib.Tactic.NormNum
import Mathlib.Tactic.Positivity

/-! The kernels return a result in every proper configuration. -/

noncomputable section

namespace Verif.Mech

open Verif Verif.Neigh

theorem len_eq_zero {d : V3} : len d = 0 ↔ d = 0 := by
  unfold len
  have h0 := mul_self_nonneg (d 0)
  have h1 := mul_self_nonneg (d 1)
  have h2 := mul_self_nonneg (d 2)
  constructor
  · intro h
    have hs : d 0 * d 0 + d 1 * d 1 + d 2 * d 2 = 0 := (Real.sqrt_eq_zero (by linarith)).1 h
    have e0 : d 0 = 0 := mul_self_eq_zero.1 (by linarith)
    have e1 : d 1 = 0 := mul_self_eq_zero.1 (by linarith)
    have e2 : d 2 = 0 := mul_self_eq_zero.1 (by linarith)
    funext c
    fin_cases c
    · exact e0
    · exact e1
    · exact e2
  · rintro rfl
    simp

theorem along_ok {C : Config} {b : Bond} (h : C.y b.j ≠ C.y b.i) (t : ℝ) :
    along C b t = .ok fun c => t * C.yd b c / C.dY b := by
  unfold along
  rw [if_neg]
  intro h0
  exact h (sub_eq_zero.1 (len_eq_zero.1 h0))

theorem dilatationLoop_ok {C : Config} {bs : List Bond} (h : ∀ b ∈ bs, C.m b.i ≠ 0) (th : Nat → ℝ) :
    ∃ r, dilatationLoop C bs th = .ok r := by
  induction bs generalizing th with
  | nil => exact ⟨th, rfl⟩
  | cons b bs ih =>
    rw [dilatationLoop, dilatationTerm, if_neg (h b List.mem_cons_self)]
    exact ih (fun b' hb' => h b' (List.mem_cons_of_mem _ hb')) _

theorem dilatation_ok {C : Config} {nbs : List (List Nat)} (h : Proper C nbs) (th : Nat → ℝ) :
    ∃ r, dilatation C nbs.length (encode nbs) th = .ok r := by
  rw [dilatation, visited_encode]
  exact dilatationLoop_ok (fun b hb => (h _ _ (mem_bondsOf hb)).1) _

/-- The elastic material produces a result in every proper configuration. -/
theorem elastic_defined {C : Config} {nbs : List (List Nat)} (h : Proper C nbs) (K mu : ℝ)
    (th : Nat → ℝ) : ∃ theta F, elasticMaterial C K mu nbs.length (encode nbs) th = .ok (theta, F) := by
  obtain ⟨theta, ht⟩ := dilatation_ok h th
  obtain ⟨F, hF⟩ : ∃ F, elasticForce C K mu theta nbs.length (encode nbs) 0 = .ok F := by
    rw [elasticForce, kernel, visited_encode]
    apply scatter_ok
    intro b hb
    have := h _ _ (mem_bondsOf hb)
    rw [elasticBond, if_neg this.1]
    exact ⟨_, along_ok this.2.1 _⟩
  exact ⟨theta, F, by rw [elasticMaterial, ht]; simp only; rw [hF]⟩

/-- The bond-based material produces a result in every proper configuration with a horizon. -/
theorem bondBased_defined {C : Config} {nbs : List (List Nat)} (h : Proper C nbs) (K : ℝ)
    (hh : C.horizon ≠ 0) :
    ∃ F, bondBasedMaterial C K none nbs.length (encode nbs) = .ok F := by
  have hpi := Real.pi_ne_zero
  rw [bondBasedMaterial, bondConstant, if_neg (by simp [hpi, hh])]
  simp only [kernel, visited_encode]
  apply scatter_ok
  intro b hb
  have := h _ _ (mem_bondsOf hb)
  have hz : C.zeta b ≠ 0 := fun h0 => this.2.2 (sub_eq_zero.1 (len_eq_zero.1 h0))
  rw [bondBasedBond, if_neg hz]
  exact ⟨_, along_ok this.2.1 _⟩

theorem sqrt_two_yv {yv : ℝ} (h : 0 < yv) : Real.sqrt (2 * yv) ≠ 0 :=
  (Real.sqrt_pos.2 (by linarith)).ne'

theorem plasticFlow_ok {C : Config} {P : PlasticConst} {yv : ℝ} (hy : 0 < yv) (hmu : P.mu ≠ 0)
    (theta edpN : Nat → ℝ) (p : Nat) (bs : List Bond) (hm : C.m p ≠ 0) :
    ∃ fl, plasticFlow C P yv theta edpN p bs = .ok fl ∧ (fl.deltaLambda.isSome → fl.tdNorm ≠ 0) := by
  rw [plasticFlow, if_neg hm]
  simp only
  split
  · next hf =>
    have ha : ¬ (Real.sqrt (2 * yv) = 0 ∨ 15 * P.mu / C.m p = 0) := by
      rintro (h | h)
      · exact sqrt_two_yv hy h
      · exact div_ne_zero (mul_ne_zero (by norm_num) hmu) hm h
    rw [if_neg ha]
    refine ⟨_, rfl, fun _ h0 => ?_⟩
    simp only at h0
    rw [h0] at hf
    linarith
  · exact ⟨_, rfl, by simp⟩

theorem plasticInner_ok {C : Config} {P : PlasticConst} {yv : ℝ} {theta edpN : Nat → ℝ} {fl : Flow}
    (hfl : fl.deltaLambda.isSome → fl.tdNorm ≠ 0) {bs : List Bond}
    (hb : ∀ b ∈ bs, C.y b.j ≠ C.y b.i) (s : PlasticState) :
    ∃ s', plasticInner C P yv theta edpN fl bs s = .ok s' := by
  induction bs generalizing s with
  | nil => exact ⟨s, rfl⟩
  | cons b bs ih =>
    rw [plasticInner]
    obtain ⟨u, hu⟩ : ∃ u, plasticUpdate C P yv theta edpN fl b = .ok u := by
      rw [plasticUpdate]
      cases hd : fl.deltaLambda with
      | none => exact ⟨_, rfl⟩
      | some dl =>
        simp only
        rw [if_neg (hfl (by rw [hd]; rfl))]
        exact ⟨_, rfl⟩
    rw [hu]
    simp only [plasticBond]
    rw [along_ok (hb b List.mem_cons_self)]
    exact ih (fun b' hb' => hb b' (List.mem_cons_of_mem _ hb')) _

/-- The elastic-plastic material produces a result in every proper configuration in which every point
has a weighted volume, with non-zero horizon, yield stress and shear modulus. -/
theorem plastic_defined {C : Config} {P : PlasticConst} {nbs : List (List Nat)} (h : Proper C nbs)
    (hm : ∀ p, p < nbs.length → C.m p ≠ 0) (hh : 0 < C.horizon) (hy : P.yieldStress ≠ 0)
    (hmu : P.mu ≠ 0) (hp : P.planar = none) (th edpN lambdaN : Nat → ℝ) (s : PlasticState) :
    ∃ theta s', plasticMaterial C P nbs.length (encode nbs) th edpN lambdaN s = .ok (theta, s') := by
  have hpr : Proper { C with thermal := none } nbs := h
  obtain ⟨theta, ht⟩ := dilatation_ok hpr th
  rw [plasticMaterial, ht]
  simp only
  have hyv : yieldValue P C.horizon =
      .ok (25 * P.yieldStress * P.yieldStress / 8 / Real.pi / C.horizon ^ 5) := by
    rw [yieldValue, hp]
    simp only
    rw [if_neg (pow_ne_zero _ hh.ne')]
  have hpos : 0 < 25 * P.yieldStress * P.yieldStress / 8 / Real.pi / C.horizon ^ 5 := by
    have h1 : 0 < P.yieldStress * P.yieldStress := mul_self_pos.2 hy
    have h2 := Real.pi_pos
    have : 0 < 25 * P.yieldStress * P.yieldStress := by nlinarith
    positivity
  have key : ∀ (ps : List Nat) (s : PlasticState), (∀ p ∈ ps, p < nbs.length) →
      ∃ s', plasticPoints C P (25 * P.yieldStress * P.yieldStress / 8 / Real.pi / C.horizon ^ 5) theta
        edpN lambdaN (bondsOf nbs) ps s = .ok s' := by
    intro ps
    induction ps with
    | nil => intro s _; exact ⟨s, rfl⟩
    | cons p ps ih =>
      intro s hps
      rw [plasticPoints]
      obtain ⟨fl, hfl, hn⟩ := plasticFlow_ok (C := C) (P := P) hpos hmu theta edpN p
        ((bondsOf nbs).filter fun b => b.i = p) (hm p (hps p List.mem_cons_self))
      rw [hfl]
      simp only
      obtain ⟨s1, hs1⟩ := plasticInner_ok (C := C) (P := P)
        (yv := 25 * P.yieldStress * P.yieldStress / 8 / Real.pi / C.horizon ^ 5) (theta := theta)
        (edpN := edpN) hn (bs := (bondsOf nbs).filter fun b => b.i = p)
        (fun b hb => (h _ _ (mem_bondsOf (List.mem_filter.1 hb).1)).2.1)
        { s with lambda := Function.update s.lambda p (fl.newLambda (lambdaN p)) }
      rw [hs1]
      exact ih s1 fun q hq => hps q (List.mem_cons_of_mem _ hq)
  obtain ⟨s', hs'⟩ := key (List.range nbs.length) { s with F := 0 } fun p hp => List.mem_range.1 hp
  refine ⟨theta, s', ?_⟩
  rw [plasticForce, hyv, visited_encode]
  simp only
  rw [hs']

/-- The viscoelastic material produces a result in every proper configuration. -/
theorem visco_defined {C : Config} {P : ViscoConst} {dt : ℝ} {nbs : List (List Nat)}
    (h : Proper C nbs) (hdt : dt ≠ 0) (ht : P.tauB ≠ 0) (yN : Nat → V3)
    (thetaN edbN th edb : Nat → ℝ) :
    ∃ theta edb' F, viscoMaterial C P dt yN thetaN edbN nbs.length (encode nbs) th edb =
      .ok (theta, edb', F) := by
  have hpr : Proper { C with thermal := none } nbs := h
  obtain ⟨theta, hth⟩ := dilatation_ok hpr th
  have key : ∀ (decay beta : ℝ) (bs : List Bond) (s : (Nat → ℝ) × (Nat → V3)),
      (∀ b ∈ bs, C.m b.i ≠ 0 ∧ C.y b.j ≠ C.y b.i) →
      ∃ s', viscoLoop C P decay beta yN thetaN theta edbN bs s = .ok s' := by
    intro decay beta bs
    induction bs with
    | nil => intro s _; exact ⟨s, rfl⟩
    | cons b bs ih =>
      intro s hb
      have h1 := hb b List.mem_cons_self
      rw [viscoLoop]
      simp only [viscoBond]
      rw [if_neg h1.1, along_ok h1.2]
      exact ih _ fun b' hb' => hb b' (List.mem_cons_of_mem _ hb')
  obtain ⟨s', hs'⟩ := key (Real.exp (-1 / (P.tauB / dt)))
    (1 - P.tauB / dt * (1 - Real.exp (-1 / (P.tauB / dt)))) (bondsOf nbs) (edb, 0)
    fun b hb => ⟨(h _ _ (mem_bondsOf hb)).1, (h _ _ (mem_bondsOf hb)).2.1⟩
  refine ⟨theta, s'.1, s'.2, ?_⟩
  rw [viscoMaterial, hth]
  simp only
  rw [viscoForce, viscoCoefficients, if_neg hdt]
  simp only
  rw [if_neg (div_ne_zero ht hdt), visited_encode]
  simp only
  rw [hs']

end Verif.Mech
