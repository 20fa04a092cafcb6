import Verif.Mech.Plastic
import Mathlib.Analysis.SpecialFunctions.Exp

/-!
# Properties C23 and C24: plastic and viscoelastic histories
-/

noncomputable section

namespace Verif.Mech

open Verif Verif.Neigh

/-! ### C23 -/

/-- C23, yield condition: after a step the deviatoric force state of every point satisfies the yield
condition, whatever the plastic history and the damage. -/
theorem C23_yield (C : Config) (P : PlasticConst) (nbs : List (List Nat)) (hv : ∀ k, 0 ≤ C.v k)
    (th edpN lambdaN theta : Nat → ℝ) (s s' : PlasticState)
    (h : plasticMaterial C P nbs.length (encode nbs) th edpN lambdaN s = .ok (theta, s')) (yv : ℝ)
    (hyv : yieldValue P C.horizon = .ok yv) (p : Nat) (ns : List Nat) (hp : nbs[p]? = some ns) :
    yieldMeasure C P.mu nbs theta s'.edp p ns ≤ yv := by
  obtain ⟨yv', hyv', hall⟩ := plastic_spec h
  rw [hyv] at hyv'
  cases hyv'
  obtain ⟨fl, hfl, _, hb⟩ := hall p (List.getElem?_eq_some_iff.1 hp).1
  rw [yieldMeasure_eq hp]
  have hb' : ∀ b ∈ (bondsOf nbs).filter (fun b => b.i = p), b.i = p ∧
      ∃ td, plasticUpdate C P yv theta edpN fl b = .ok (td, s'.edp b.b) := by
    intro b hmem
    have := List.mem_filter.1 hmem
    have hi : b.i = p := by simpa using this.2
    exact ⟨hi, hb b this.1 hi⟩
  revert hb'
  generalize (bondsOf nbs).filter (fun b => b.i = p) = bs at *
  intro hb'
  simp only [plasticFlow, deviatoricNorm_eq] at hfl
  split at hfl
  · cases hfl
  · have hnn := trialSum_nonneg hv theta edpN (15 * P.mu / C.m p) bs
    have hsq := Real.mul_self_sqrt hnn
    split at hfl
    · next hf =>
      split at hfl
      · cases hfl
      · next hz =>
        rw [not_or] at hz
        cases hfl
        have hyv0 : 0 ≤ 2 * yv := by
          by_contra hneg
          exact hz.1 (Real.sqrt_eq_zero_of_nonpos (by linarith))
        have hy := Real.mul_self_sqrt hyv0
        have htn : Real.sqrt (trialSum C theta edpN (15 * P.mu / C.m p) bs) ≠ 0 := by
          intro h0
          rw [h0] at hf
          linarith
        have hscale : trialSum C theta s'.edp (15 * P.mu / C.m p) bs =
            (Real.sqrt (2 * yv) / Real.sqrt (trialSum C theta edpN (15 * P.mu / C.m p) bs)) ^ 2 *
              trialSum C theta edpN (15 * P.mu / C.m p) bs := by
          generalize htd : Real.sqrt (trialSum C theta edpN (15 * P.mu / C.m p) bs) = tn at hb' ⊢
          rw [trialSum, trialSum, ← List.sum_map_mul_left]
          congr 1
          apply List.map_congr_left
          intro b hbm
          obtain ⟨hi, td, hu⟩ := hb' b hbm
          have := update_scaled (by rw [hi]; exact hz.2) hz.1 (by rw [hi]) hu
          rw [this]
          ring
        rw [hscale, div_pow]
        have e1 : Real.sqrt (2 * yv) ^ 2 = 2 * yv := by rw [pow_two, hy]
        have e2 : Real.sqrt (trialSum C theta edpN (15 * P.mu / C.m p) bs) ^ 2 =
            trialSum C theta edpN (15 * P.mu / C.m p) bs := by rw [pow_two, hsq]
        rw [e1, e2]
        have hne : trialSum C theta edpN (15 * P.mu / C.m p) bs ≠ 0 := by
          intro h0
          rw [h0] at htn
          simp at htn
        rw [div_mul_cancel₀ _ hne]
        linarith
    · next hf =>
      cases hfl
      have hsame : trialSum C theta s'.edp (15 * P.mu / C.m p) bs =
          trialSum C theta edpN (15 * P.mu / C.m p) bs := by
        rw [trialSum, trialSum]
        congr 1
        apply List.map_congr_left
        intro b hbm
        obtain ⟨_, td, hu⟩ := hb' b hbm
        simp only [plasticUpdate] at hu
        have : edpN b.b = s'.edp b.b := by injection hu with hu; exact (Prod.ext_iff.1 hu).2
        rw [this]
      rw [hsame, ← hsq]
      linarith

/-- C23, elastic steps: if the trial state does not exceed the yield value, the step changes neither the
multiplier of the point nor the plastic extensions of its bonds. -/
theorem C23_elastic (C : Config) (P : PlasticConst) (nbs : List (List Nat)) (hv : ∀ k, 0 ≤ C.v k)
    (th edpN lambdaN theta : Nat → ℝ) (s s' : PlasticState)
    (h : plasticMaterial C P nbs.length (encode nbs) th edpN lambdaN s = .ok (theta, s')) (yv : ℝ)
    (hyv : yieldValue P C.horizon = .ok yv) (p : Nat) (ns : List Nat) (hp : nbs[p]? = some ns)
    (hel : yieldMeasure C P.mu nbs theta edpN p ns ≤ yv) :
    s'.lambda p = lambdaN p ∧
      ∀ t < ns.length, s'.edp (bondPos nbs p t) = edpN (bondPos nbs p t) := by
  obtain ⟨yv', hyv', hall⟩ := plastic_spec h
  rw [hyv] at hyv'
  cases hyv'
  obtain ⟨fl, hfl, hlam, hb⟩ := hall p (List.getElem?_eq_some_iff.1 hp).1
  rw [yieldMeasure_eq hp] at hel
  have hnone : fl.deltaLambda = none := by
    simp only [plasticFlow, deviatoricNorm_eq] at hfl
    split at hfl
    · cases hfl
    · rw [if_neg] at hfl
      · cases hfl; rfl
      · have hnn := trialSum_nonneg hv theta edpN (15 * P.mu / C.m p)
          ((bondsOf nbs).filter fun b => b.i = p)
        rw [Real.mul_self_sqrt hnn]
        linarith
  constructor
  · rw [hlam]
    simp only [Flow.newLambda, hnone]
  · intro t ht
    have hmem : (⟨p, ns[t], bondPos nbs p t⟩ : Bond) ∈ (bondsOf nbs).filter fun b => b.i = p := by
      rw [filter_bondsOf nbs hp]
      refine List.mem_map.2 ⟨(ns[t], t), ?_, rfl⟩
      rw [List.mem_zipIdx_iff_getElem?]
      simp [ht]
    obtain ⟨td, hu⟩ := hb _ (List.mem_filter.1 hmem).1 rfl
    simp only [plasticUpdate, hnone] at hu
    injection hu with hu
    exact (Prod.ext_iff.1 hu).2.symm

/-- The multiplier does not decrease in one step. -/
theorem plastic_lambda_step {C : Config} {P : PlasticConst} {nbs : List (List Nat)} (hmu : 0 < P.mu)
    {th edpN lambdaN theta : Nat → ℝ} {s s' : PlasticState} {p : Nat} (hp : p < nbs.length)
    (hm : 0 < C.m p)
    (h : plasticMaterial C P nbs.length (encode nbs) th edpN lambdaN s = .ok (theta, s')) :
    lambdaN p ≤ s'.lambda p := by
  obtain ⟨yv, hyv, hall⟩ := plastic_spec h
  obtain ⟨fl, hfl, hlam, _⟩ := hall p hp
  rw [hlam]
  rw [plasticFlow] at hfl
  split at hfl
  · cases hfl
  · simp only at hfl
    have hn0 : 0 ≤ deviatoricNorm C theta edpN (15 * P.mu / C.m p)
        ((bondsOf nbs).filter fun b => b.i = p) := Real.sqrt_nonneg _
    revert hn0 hfl
    generalize deviatoricNorm C theta edpN (15 * P.mu / C.m p)
      ((bondsOf nbs).filter fun b => b.i = p) = tn
    intro hfl hn0
    split at hfl
    · next hf =>
      split at hfl
      · cases hfl
      · next hz =>
        rw [not_or] at hz
        cases hfl
        simp only [Flow.newLambda]
        have ha : 0 < 15 * P.mu / C.m p := by positivity
        have hs : 0 < Real.sqrt (2 * yv) := lt_of_le_of_ne (Real.sqrt_nonneg _) (Ne.symm hz.1)
        have hyv0 : 0 ≤ 2 * yv := (Real.sqrt_pos.1 hs).le
        have hy := Real.mul_self_sqrt hyv0
        have hle : Real.sqrt (2 * yv) ≤ tn := by
          rw [Real.sqrt_le_left hn0]
          nlinarith
        have h1 : 1 ≤ tn / Real.sqrt (2 * yv) := (one_le_div hs).2 hle
        have : 0 ≤ (tn / Real.sqrt (2 * yv) - 1) / (15 * P.mu / C.m p) :=
          div_nonneg (by linarith) ha.le
        linarith
    · cases hfl
      exact le_refl _

/-- C23 over a history of any length: at every stage of the history the yield condition holds, and the
plastic multiplier of every point is at least what it was at the start and at every earlier stage. -/
theorem C23_history (P : PlasticConst) (hmu : 0 < P.mu) (nbs : List (List Nat)) (s0 s : PlasticState)
    (hist : List (Config × (Nat → ℝ) × PlasticState)) (h : PlasticRun P nbs s0 s hist)
    (hok : ∀ e ∈ hist, (∀ k, 0 ≤ e.1.v k) ∧ ∀ p < nbs.length, 0 < e.1.m p) :
    (∀ e ∈ hist, ∀ yv, yieldValue P e.1.horizon = .ok yv → ∀ p ns, nbs[p]? = some ns →
        yieldMeasure e.1 P.mu nbs e.2.1 e.2.2.edp p ns ≤ yv) ∧
      ∀ p < nbs.length, s0.lambda p ≤ s.lambda p ∧ ∀ e ∈ hist, e.2.2.lambda p ≤ s.lambda p := by
  induction h with
  | start => simp
  | @step s hist i theta s' hrun hstep ih =>
    obtain ⟨h1, h2⟩ := ih fun e he => hok e (List.mem_cons_of_mem _ he)
    have hi := hok _ List.mem_cons_self
    constructor
    · intro e he yv hyv p ns hp
      rcases List.mem_cons.1 he with rfl | he
      · exact C23_yield i.C P nbs hi.1 _ _ _ _ _ _ hstep yv hyv p ns hp
      · exact h1 e he yv hyv p ns hp
    · intro p hp
      have hle := plastic_lambda_step hmu hp (hi.2 p hp) hstep
      obtain ⟨h3, h4⟩ := h2 p hp
      refine ⟨h3.trans hle, ?_⟩
      intro e he
      rcases List.mem_cons.1 he with rfl | he
      · exact le_refl _
      · exact (h4 e he).trans hle

/-- A run of one step exists from the virgin state of the case of C17. -/
example : ∃ s hist, PlasticRun ⟨1, 1, 1, none⟩ demoNbs ⟨0, 0, 0⟩ s hist ∧ hist.length = 1 ∧
    ∀ e ∈ hist, (∀ k, 0 ≤ e.1.v k) ∧ ∀ p < demoNbs.length, 0 < e.1.m p := by
  obtain ⟨theta, s', h⟩ := plastic_defined (C := demo) (P := ⟨1, 1, 1, none⟩) demo_proper
    (by intro p _; norm_num [demo]) (by norm_num [demo]) (by norm_num)
    (by norm_num) rfl (0 : Nat → ℝ) 0 0 ⟨0, 0, 0⟩
  refine ⟨s', _, PlasticRun.step ⟨demo, 0, ⟨0, 0, 0⟩⟩ PlasticRun.start h, rfl, ?_⟩
  intro e he
  rw [List.mem_singleton] at he
  subst he
  exact ⟨fun k => by simp only [demo]; positivity, fun p _ => by norm_num [demo]⟩

/-- C21 for the elastic-plastic material: a point all of whose bonds in both directions are broken has no
internal force. -/
theorem C21_free_point_plastic (C : Config) (nbs : List (List Nat)) (k : Nat)
    (hk : ∀ p t j : Nat, (∃ ns, nbs[p]? = some ns ∧ ns[t]? = some j) → p = k ∨ j = k →
      C.damage (bondPos nbs p t) = 1) (P : PlasticConst)
    (th edpN lambdaN theta : Nat → ℝ) (s s' : PlasticState)
    (h : plasticMaterial C P nbs.length (encode nbs) th edpN lambdaN s = .ok (theta, s')) :
    s'.F k = 0 := by
  have hdam : ∀ b ∈ bondsOf nbs, b.i = k ∨ b.j = k → C.damage b.b = 1 := by
    intro b hb hor
    obtain ⟨t, h1, h2⟩ := bondsOf_pos hb
    rw [h2]
    exact hk b.i t b.j h1 hor
  have inner : ∀ (yv : ℝ) (theta : Nat → ℝ) (fl : Flow) (bs : List Bond) (s s' : PlasticState),
      plasticInner C P yv theta edpN fl bs s = .ok s' →
      Scattered (selfVol C) (nbrVol C) (fun b g => C.damage b.b = 1 → g = 0) bs s.F s'.F := by
    intro yv theta fl bs
    induction bs with
    | nil => intro s s' h; simp only [plasticInner] at h; cases h; exact Scattered.nil _ _ _ _
    | cons b bs ih =>
      intro s s' h
      rw [plasticInner] at h
      split at h
      · next td edp' hu =>
        split at h
        · next f hf =>
          refine Scattered.cons ?_ (ih _ _ h)
          intro hd
          exact along_damaged hf (by rw [hd]; ring)
        · cases h
        · cases h
      · cases h
      · cases h
  have points : ∀ (yv : ℝ) (theta : Nat → ℝ) (ps : List Nat) (s s' : PlasticState),
      plasticPoints C P yv theta edpN lambdaN (bondsOf nbs) ps s = .ok s' →
      Scattered (selfVol C) (nbrVol C) (fun b g => C.damage b.b = 1 → g = 0)
        (ps.flatMap fun p => (bondsOf nbs).filter fun b => b.i = p) s.F s'.F := by
    intro yv theta ps
    induction ps with
    | nil => intro s s' h; simp only [plasticPoints] at h; cases h; exact Scattered.nil _ _ _ _
    | cons p ps ih =>
      intro s s' h
      rw [plasticPoints] at h
      split at h
      · split at h
        · next s1 hs1 =>
          rw [List.flatMap_cons]
          exact (inner _ _ _ _ _ _ hs1).append (ih _ _ h)
        · cases h
        · cases h
      · cases h
      · cases h
  unfold plasticMaterial at h
  split at h
  · split at h
    · next s1 hp =>
      cases h
      unfold plasticForce at hp
      rw [visited_encode] at hp
      split at hp
      · refine force_zero_of (points _ _ _ _ _ hp) k ?_
        intro b hb hor g hg
        obtain ⟨p, _, hbp⟩ := List.mem_flatMap.1 hb
        exact hg (hdam b (List.mem_filter.1 hbp).1 hor)
      · cases hp
      · cases hp
    · cases h
    · cases h
  · cases h
  · cases h

/-! ### C24 -/

theorem visco_weights {tau dt decay beta : ℝ} (ht : 0 < tau) (hdt : 0 < dt)
    (h : viscoCoefficients tau dt = .ok (decay, beta)) : 0 ≤ decay ∧ 0 ≤ beta ∧ 0 ≤ 1 - decay - beta := by
  have hc : 0 < tau / dt := div_pos ht hdt
  rw [viscoCoefficients, if_neg hdt.ne'] at h
  simp only at h
  rw [if_neg hc.ne'] at h
  injection h with h
  obtain ⟨h1, h2⟩ := Prod.ext_iff.1 h
  simp only at h1 h2
  generalize tau / dt = c at *
  have hx : c * (1 / c) = 1 := by field_simp
  have e1 := Real.add_one_le_exp (-1 / c)
  have e2 := Real.add_one_le_exp (1 / c)
  have hpos := Real.exp_pos (-1 / c)
  have hprod : Real.exp (1 / c) * Real.exp (-1 / c) = 1 := by
    rw [← Real.exp_add, ← add_div]
    simp
  rw [← h2, ← h1]
  refine ⟨hpos.le, ?_, ?_⟩
  · have : c * (-1 / c) = -1 := by field_simp
    nlinarith
  · have h3 : (1 / c + 1) * Real.exp (-1 / c) ≤ 1 := by
      exact (mul_le_mul_of_nonneg_right e2 hpos.le).trans hprod.le
    have h4 : c * ((1 / c + 1) * Real.exp (-1 / c)) ≤ c * 1 := mul_le_mul_of_nonneg_left h3 hc.le
    have h5 : c * ((1 / c + 1) * Real.exp (-1 / c)) = (1 + c) * Real.exp (-1 / c) := by
      rw [← mul_assoc, mul_add, hx, mul_one]
    nlinarith

theorem viscoLoop_spec {C : Config} {P : ViscoConst} {decay beta : ℝ} {yN : Nat → V3}
    {thetaN theta edbN : Nat → ℝ} {bs : List Bond} {s s' : (Nat → ℝ) × (Nat → V3)}
    (h : viscoLoop C P decay beta yN thetaN theta edbN bs s = .ok s') (hn : (bs.map (·.b)).Nodup) :
    (∀ b ∈ bs, s'.1 b.b = viscoBack decay beta (viscoEd C yN thetaN b) (viscoEd C C.y theta b) (edbN b.b)) ∧
      ∀ q, q ∉ bs.map (·.b) → s'.1 q = s.1 q := by
  induction bs generalizing s with
  | nil => simp only [viscoLoop] at h; cases h; simp
  | cons b bs ih =>
    rw [viscoLoop] at h
    rw [List.map_cons, List.nodup_cons] at hn
    split at h
    · obtain ⟨h1, h2⟩ := ih h hn.2
      constructor
      · intro b' hb'
        rcases List.mem_cons.1 hb' with rfl | hb'
        · rw [h2 _ hn.1]
          simp
        · exact h1 b' hb'
      · intro q hq
        rw [List.map_cons, List.mem_cons, not_or] at hq
        rw [h2 q hq.2]
        exact Function.update_of_ne hq.1 _ _
    · cases h
    · cases h

/-- C24: over every history, with any positive time steps and relaxation time, the back extension of a
bond stays within every interval that contains its initial value and the deviatoric extensions the
bond experienced at the beginning and at the end of each step. -/
theorem C24_bounded (P : ViscoConst) (ht : 0 < P.tauB) (nbs : List (List Nat)) (s0 s : ViscoState)
    (hist : List (ViscoState × Config × (Nat → ℝ))) (h : ViscoRun P nbs s0 s hist)
    (p t j : Nat) (hb : ∃ ns, nbs[p]? = some ns ∧ ns[t]? = some j) (lo hi : ℝ)
    (h0 : s0.edb (bondPos nbs p t) ∈ Set.Icc lo hi)
    (hall : ∀ e ∈ hist,
      viscoExtension e.2.1 (e.2.1.damage (bondPos nbs p t)) e.1.y e.1.theta p j ∈ Set.Icc lo hi ∧
      viscoExtension e.2.1 (e.2.1.damage (bondPos nbs p t)) e.2.1.y e.2.2 p j ∈ Set.Icc lo hi) :
    s.edb (bondPos nbs p t) ∈ Set.Icc lo hi := by
  induction h with
  | start => exact h0
  | @step s hist C dt th stale theta edb F hrun hdt hstep ih =>
    have hs := ih fun e he => hall e (List.mem_cons_of_mem _ he)
    obtain ⟨hN, hNp⟩ := hall _ List.mem_cons_self
    simp only at hN hNp ⊢
    obtain ⟨ns, hp, hj⟩ := hb
    have hmem : (⟨p, j, bondPos nbs p t⟩ : Bond) ∈ bondsOf nbs := by
      have : (⟨p, j, bondPos nbs p t⟩ : Bond) ∈ (bondsOf nbs).filter fun b => b.i = p := by
        rw [filter_bondsOf nbs hp]
        refine List.mem_map.2 ⟨(j, t), ?_, rfl⟩
        rw [List.mem_zipIdx_iff_getElem?]
        exact hj
      exact (List.mem_filter.1 this).1
    unfold viscoMaterial at hstep
    split at hstep
    · next theta' hd =>
      split at hstep
      · next r hr =>
        cases hstep
        unfold viscoForce at hr
        rw [visited_encode] at hr
        split at hr
        · next decay beta hco =>
          obtain ⟨w1, w2, w3⟩ := visco_weights ht hdt hco
          have hv := (viscoLoop_spec hr (bondsOf_nodup nbs)).1 _ hmem
          simp only at hv
          rw [hv]
          have e1 : viscoEd C s.y s.theta ⟨p, j, bondPos nbs p t⟩ =
              viscoExtension C (C.damage (bondPos nbs p t)) s.y s.theta p j := rfl
          have e2 : viscoEd C C.y theta ⟨p, j, bondPos nbs p t⟩ =
              viscoExtension C (C.damage (bondPos nbs p t)) C.y theta p j := rfl
          rw [e1, e2, viscoBack]
          generalize viscoExtension C (C.damage (bondPos nbs p t)) s.y s.theta p j = a at *
          generalize viscoExtension C (C.damage (bondPos nbs p t)) C.y theta p j = c at *
          generalize s.edb (bondPos nbs p t) = d at *
          obtain ⟨a1, a2⟩ := hN
          obtain ⟨c1, c2⟩ := hNp
          obtain ⟨d1, d2⟩ := hs
          constructor
          · nlinarith [mul_nonneg w3 (sub_nonneg.2 a1), mul_nonneg w1 (sub_nonneg.2 d1),
              mul_nonneg w2 (sub_nonneg.2 c1)]
          · nlinarith [mul_nonneg w3 (sub_nonneg.2 a2), mul_nonneg w1 (sub_nonneg.2 d2),
              mul_nonneg w2 (sub_nonneg.2 c2)]
        · cases hr
        · cases hr
      · cases hstep
      · cases hstep
    · cases hstep
    · cases hstep

example : ∃ s hist, ViscoRun ⟨1, 1, 1 / 2, 3⟩ demoNbs ⟨demo.x, 0, 0⟩ s hist ∧ hist.length = 1 := by
  obtain ⟨theta, edb, F, h⟩ := visco_defined (C := demo) (P := ⟨1, 1, 1 / 2, 3⟩) (dt := 1) demo_proper
    (by norm_num) (by norm_num) demo.x 0 0 (0 : Nat → ℝ) 0
  exact ⟨_, _, ViscoRun.step demo 1 0 0 ViscoRun.start (by norm_num) h, rfl⟩

end Verif.Mech
