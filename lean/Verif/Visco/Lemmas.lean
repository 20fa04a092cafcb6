import Verif.Visco.Spec
import Verif.Mech.FrameProps
import Verif.Mech.HistoryProps
import Verif.Energy.Lemmas
import Verif.Lps.Lemmas
import Mathlib.Analysis.SpecialFunctions.ExpDeriv
import Mathlib.Analysis.Calculus.MeanValue

/-! Lemmas for C252 to C254. -/

noncomputable section

namespace Verif.Visco

open Verif Verif.Neigh Verif.Mech Verif.Energy

theorem bond_mem {nbs : List (List Nat)} {p t j : Nat} (h : IsNeighbor nbs p t j) :
    (⟨p, j, bondPos nbs p t⟩ : Bond) ∈ bondsOf nbs := by
  obtain ⟨ns, hp, hj⟩ := h
  have : (⟨p, j, bondPos nbs p t⟩ : Bond) ∈ (bondsOf nbs).filter fun b => b.i = p := by
    rw [filter_bondsOf nbs hp]
    refine List.mem_map.2 ⟨(j, t), ?_, rfl⟩
    rw [List.mem_zipIdx_iff_getElem?]
    exact hj
  exact (List.mem_filter.1 this).1

/-- The forces of bonds with tensions `T`. -/
def total (C : Config) (nbs : List (List Nat)) (T : Bond → ℝ) (k : Nat) : V3 :=
  ((bondsOf nbs).map fun b => pull (selfVol C) (nbrVol C) k (b, (T b / C.dY b) • C.yd b)).sum

theorem total_congr {C : Config} {nbs : List (List Nat)} {T T' : Bond → ℝ} (h : ∀ b ∈ bondsOf nbs, T b = T' b) (k : Nat) :
    total C nbs T k = total C nbs T' k := by
  unfold total
  congr 1
  exact List.map_congr_left fun b hb => by rw [h b hb]

theorem total_combine (C : Config) (nbs : List (List Nat)) (T T' : Bond → ℝ) (a c : ℝ) (k : Nat) :
    total C nbs (fun b => a * T b + c * T' b) k = a • total C nbs T k + c • total C nbs T' k := by
  unfold total
  induction bondsOf nbs with
  | nil => simp
  | cons b l ih =>
    simp only [List.map_cons, List.sum_cons]
    rw [ih]
    have : pull (selfVol C) (nbrVol C) k (b, ((a * T b + c * T' b) / C.dY b) • C.yd b) =
        a • pull (selfVol C) (nbrVol C) k (b, (T b / C.dY b) • C.yd b) +
        c • pull (selfVol C) (nbrVol C) k (b, (T' b / C.dY b) • C.yd b) := by
      unfold pull
      funext i
      simp only [Pi.smul_apply, Pi.sub_apply, Pi.add_apply, smul_eq_mul]
      split <;> split <;> simp <;> ring
    rw [this]
    module

/-- The tension of a viscoelastic bond with deviatoric extension `e` and back extension `eb`. -/
def pairTension (C : Config) (P : ViscoConst) (theta : Nat → ℝ) (e eb : ℝ) (b : Bond) : ℝ :=
  (1 - C.damage b.b) * (3 * P.K * theta b.i / C.m b.i * C.zeta b + 15 * P.mu / C.m b.i * (e - P.lambdaI * eb))

theorem along_eq {C : Config} {b : Bond} {t : ℝ} {g : V3} (h : along C b t = .ok g) :
    C.dY b ≠ 0 ∧ g = (t / C.dY b) • C.yd b := by
  unfold along at h
  split at h
  · cases h
  · next hd =>
    refine ⟨hd, ?_⟩
    rw [← Outcome.ok.inj h]
    funext c
    simp only [Pi.smul_apply, smul_eq_mul]
    ring

theorem bond_eq {C : Config} {P : ViscoConst} {theta : Nat → ℝ} {e eb : ℝ} {b : Bond} {g : V3}
    (h : viscoBond C P theta e eb b = .ok g) :
    C.m b.i ≠ 0 ∧ C.dY b ≠ 0 ∧ g = (pairTension C P theta e eb b / C.dY b) • C.yd b := by
  unfold viscoBond at h
  split at h
  · cases h
  · next hm =>
    obtain ⟨h1, h2⟩ := along_eq h
    refine ⟨hm, h1, ?_⟩
    rw [h2]
    congr 2
    unfold pairTension
    ring

theorem loop_scattered {C : Config} {P : ViscoConst} {decay beta : ℝ} {yN : Nat → V3}
    {thetaN theta edbN : Nat → ℝ} {bs : List Bond} {s s' : (Nat → ℝ) × (Nat → V3)}
    (h : viscoLoop C P decay beta yN thetaN theta edbN bs s = .ok s') :
    Scattered (selfVol C) (nbrVol C) (fun b g => viscoBond C P theta (viscoEd C C.y theta b)
      (viscoBack decay beta (viscoEd C yN thetaN b) (viscoEd C C.y theta b) (edbN b.b)) b = .ok g) bs s.2 s'.2 := by
  induction bs generalizing s with
  | nil => simp only [viscoLoop] at h; cases h; exact Scattered.nil _ _ _ _
  | cons b bs ih =>
    rw [viscoLoop] at h
    split at h
    · next f hf => exact Scattered.cons hf (ih h)
    · cases h
    · cases h

/-- The share of the change within a step that the back extension takes over at once. -/
def gain (tau dt : ℝ) : ℝ := 1 - tau / dt * (1 - Real.exp (-(dt / tau)))

/-- What an evaluation of the viscoelastic material produces. -/
theorem parts {C : Config} {P : ViscoConst} {dt : ℝ} {yN : Nat → V3} {thetaN edbN th stale theta edb : Nat → ℝ}
    {nbs : List (List Nat)} {F : Nat → V3}
    (h : viscoMaterial C P dt yN thetaN edbN nbs.length (encode nbs) th stale = .ok (theta, edb, F)) :
    dilatation { C with thermal := none } nbs.length (encode nbs) th = .ok theta ∧ dt ≠ 0 ∧ P.tauB ≠ 0 ∧
    (∀ b ∈ bondsOf nbs, C.m b.i ≠ 0 ∧ C.dY b ≠ 0 ∧
      edb b.b = viscoBack (Real.exp (-(dt / P.tauB))) (gain P.tauB dt) (viscoEd C yN thetaN b) (viscoEd C C.y theta b)
        (edbN b.b)) ∧
    ∀ k, F k = total C nbs (fun b => pairTension C P theta (viscoEd C C.y theta b) (edb b.b) b) k := by
  unfold viscoMaterial at h
  split at h
  · next t hd =>
    split at h
    · next r hr =>
      cases h
      unfold viscoForce at hr
      rw [visited_encode] at hr
      split at hr
      · next decay beta hco =>
        unfold viscoCoefficients at hco
        split at hco
        · cases hco
        · next hdt =>
          simp only at hco
          split at hco
          · cases hco
          · next hc =>
            have ht : P.tauB ≠ 0 := fun e => hc (by rw [e, zero_div])
            have hx : -1 / (P.tauB / dt) = -(dt / P.tauB) := by field_simp
            rw [hx] at hco
            obtain ⟨e1, e2⟩ := Prod.ext_iff.1 (Outcome.ok.inj hco)
            simp only at e1 e2
            have hb := (viscoLoop_spec hr (bondsOf_nodup nbs)).1
            have hs := loop_scattered hr
            subst e1
            have e2 : gain P.tauB dt = beta := e2
            rw [← e2] at hb hs
            refine ⟨hd, hdt, ht, ?_, ?_⟩
            · intro b hbm
              obtain ⟨gs, g1, g2, -⟩ := hs
              rw [← g1] at hbm
              obtain ⟨x, hx, rfl⟩ := List.mem_map.1 hbm
              obtain ⟨q1, q2, -⟩ := bond_eq (g2 x hx)
              exact ⟨q1, q2, hb _ (by rw [← g1]; exact List.mem_map.2 ⟨x, hx, rfl⟩)⟩
            · intro k
              have := hs.mono (Q := fun b g => g = (pairTension C P theta (viscoEd C C.y theta b) (r.1 b.b) b / C.dY b) • C.yd b)
                fun b hbm g hg => by rw [hb b hbm]; exact (bond_eq hg).2.2
              exact Lps.scattered_at this k
      · cases hr
      · cases hr
    · cases h
    · cases h
  · cases h
  · cases h

/-- Dilatations of one configuration agree at owned points. -/
theorem dilatation_same {C : Config} {nbs : List (List Nat)} {th th' theta theta' : Nat → ℝ}
    (h : dilatation C nbs.length (encode nbs) th = .ok theta) (h' : dilatation C nbs.length (encode nbs) th' = .ok theta')
    {p : Nat} (hp : p < nbs.length) : theta p = theta' p := by
  rw [dilatation_eq h hp, dilatation_eq h' hp]

theorem bond_owned {nbs : List (List Nat)} {b : Bond} (h : b ∈ bondsOf nbs) : b.i < nbs.length := by
  obtain ⟨t, ⟨ns, h1, _⟩, _⟩ := bondsOf_pos h
  exact (List.getElem?_eq_some_iff.1 h1).1

theorem ed_congr {C : Config} {y : Nat → V3} {theta theta' : Nat → ℝ} {b : Bond} (h : theta b.i = theta' b.i) :
    viscoEd C y theta b = viscoEd C y theta' b := by
  unfold viscoEd
  rw [h]

theorem tension_congr {C : Config} {P : ViscoConst} {theta theta' : Nat → ℝ} {e eb : ℝ} {b : Bond} (h : theta b.i = theta' b.i) :
    pairTension C P theta e eb b = pairTension C P theta' e eb b := by
  unfold pairTension
  rw [h]

/-- The elastic material is evaluated wherever the viscoelastic one is. -/
theorem elastic_total {C : Config} {K mu : ℝ} {nbs : List (List Nat)} {th theta : Nat → ℝ}
    (hd : dilatation C nbs.length (encode nbs) th = .ok theta) (hb : ∀ b ∈ bondsOf nbs, C.m b.i ≠ 0 ∧ C.dY b ≠ 0) :
    ∃ F, elasticMaterial C K mu nbs.length (encode nbs) th = .ok (theta, F) ∧
      ∀ k, F k = total C nbs (fun b => tension C K mu theta b) k := by
  have key : ∀ (bs : List Bond) (G : Nat → V3), (∀ b ∈ bs, C.m b.i ≠ 0 ∧ C.dY b ≠ 0) →
      ∃ F, scatter (selfVol C) (nbrVol C) (elasticBond C K mu theta) bs G = .ok F := by
    intro bs
    induction bs with
    | nil => intro G _; exact ⟨G, rfl⟩
    | cons b bs ih =>
      intro G h
      obtain ⟨h1, h2⟩ := h b List.mem_cons_self
      rw [scatter]
      have : ∃ g, elasticBond C K mu theta b = .ok g := by
        unfold elasticBond along
        rw [if_neg h1]
        simp only
        rw [if_neg h2]
        exact ⟨_, rfl⟩
      obtain ⟨g, hg⟩ := this
      rw [hg]
      exact ih _ fun b' hb' => h b' (List.mem_cons_of_mem _ hb')
  obtain ⟨F, hF⟩ := key (bondsOf nbs) 0 hb
  have he : elasticMaterial C K mu nbs.length (encode nbs) th = .ok (theta, F) := by
    unfold elasticMaterial elasticForce kernel
    rw [hd, visited_encode]
    simp only
    rw [hF]
  refine ⟨F, he, fun k => ?_⟩
  exact Lps.scattered_at ((elastic_scattered he).mono fun b _ g hg => (elasticBond_eq hg).2.2) k

/-- Where the influence function is `w` and the back extension is the share `r` of the extension, the elastic tension with the shear
modulus reduced by that share is `w` times the viscoelastic one. -/
theorem tension_elastic {C : Config} {P : ViscoConst} {theta : Nat → ℝ} {b : Bond} {w r eb : ℝ} (hw : C.om b = w)
    (hr : eb = r * viscoEd C C.y theta b) :
    tension { C with thermal := none } P.K (P.mu * (1 - P.lambdaI * r)) theta b =
      w * pairTension C P theta (viscoEd C C.y theta b) eb b := by
  have hom : ({ C with thermal := none } : Config).om b = w := hw
  have hext : ({ C with thermal := none } : Config).ext b = len (C.y b.j - C.y b.i) - C.zeta b := rfl
  have hz : ({ C with thermal := none } : Config).zeta b = C.zeta b := rfl
  unfold tension pairTension
  rw [hom, hext, hz, hr]
  unfold viscoEd
  ring

/-- Closed form of the back extension along a linear path. -/
def path (tau dt a c e0 u : ℝ) : ℝ :=
  a + (c - a) / dt * (u - tau * (1 - Real.exp (-(u / tau)))) + (e0 - a) * Real.exp (-(u / tau))

theorem path_zero (tau dt a c e0 : ℝ) : path tau dt a c e0 0 = e0 := by
  unfold path
  simp

theorem path_end {tau dt : ℝ} (hdt : dt ≠ 0) (a c e0 : ℝ) :
    path tau dt a c e0 dt = viscoBack (Real.exp (-(dt / tau))) (gain tau dt) a c e0 := by
  unfold path viscoBack gain
  field_simp
  ring

theorem path_lags {tau dt : ℝ} (ht : tau ≠ 0) (a c e0 u : ℝ) :
    HasDerivAt (path tau dt a c e0) ((a + u / dt * (c - a) - path tau dt a c e0 u) / tau) u := by
  have h1 : HasDerivAt (fun u : ℝ => -(u / tau)) (-(1 / tau)) u := ((hasDerivAt_id u).div_const tau).neg
  have h2 := h1.exp
  have h3 : HasDerivAt (path tau dt a c e0)
      ((c - a) / dt * (1 - tau * (-(Real.exp (-(u / tau)) * -(1 / tau)))) +
        (e0 - a) * (Real.exp (-(u / tau)) * -(1 / tau))) u := by
    have hA : HasDerivAt (fun u : ℝ => u - tau * (1 - Real.exp (-(u / tau))))
        (1 - tau * (-(Real.exp (-(u / tau)) * -(1 / tau)))) u :=
      (hasDerivAt_id u).sub ((h2.const_sub 1).const_mul tau)
    have hB := ((hA.const_mul ((c - a) / dt)).const_add a).add (h2.const_mul (e0 - a))
    exact hB
  convert h3 using 1
  unfold path
  field_simp
  ring

theorem lags_unique {tau dt a c : ℝ} (ht : tau ≠ 0) (hdt : 0 ≤ dt) {E G : ℝ → ℝ} (hE : Lags tau dt a c E) (hG : Lags tau dt a c G)
    (h0 : E 0 = G 0) : E dt = G dt := by
  let H : ℝ → ℝ := fun u => (E u - G u) * Real.exp (u / tau)
  have hH : ∀ u ∈ Set.Icc 0 dt, HasDerivAt H 0 u := by
    intro u hu
    have h1 : HasDerivAt (fun u : ℝ => u / tau) (1 / tau) u := (hasDerivAt_id u).div_const tau
    have h2 := ((hE u hu).sub (hG u hu)).mul h1.exp
    refine h2.congr_deriv ?_
    show ((a + u / dt * (c - a) - E u) / tau - (a + u / dt * (c - a) - G u) / tau) * Real.exp (u / tau) +
      (E u - G u) * (Real.exp (u / tau) * (1 / tau)) = 0
    ring
  have h := constant_of_has_deriv_right_zero (f := H) (a := 0) (b := dt)
    (fun u hu => (hH u hu).continuousAt.continuousWithinAt)
    (fun u hu => (hH u ⟨hu.1, hu.2.le⟩).hasDerivWithinAt) dt ⟨hdt, le_refl _⟩
  have h0' : H 0 = 0 := by
    show (E 0 - G 0) * _ = 0
    rw [h0, sub_self, zero_mul]
  rw [h0'] at h
  have h : (E dt - G dt) * Real.exp (dt / tau) = 0 := h
  rcases mul_eq_zero.1 h with h | h
  · linarith
  · exact absurd h (Real.exp_pos _).ne'

end Verif.Visco
