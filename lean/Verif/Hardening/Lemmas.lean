import Verif.Hardening.Root
import Verif.Hardening.Spec
import Verif.Mech.Plastic

/-! Lemmas for C129 and C130: what the kernel stores and how it scatters. -/

noncomputable section

namespace Verif.Hardening

open Verif Verif.Neigh Verif.Mech

theorem inner_spec {C : Config} {P : Const} {scf theta edpN : Nat → ℝ} {dl : ℝ}
    {bs : List Bond} {s s' : PlasticState} (h : inner C P scf theta edpN dl bs s = .ok s')
    (hn : (bs.map (·.b)).Nodup) :
    s'.lambda = s.lambda ∧
      (∀ b ∈ bs, ∃ td, update C P scf theta edpN dl b = .ok (td, s'.edp b.b)) ∧
      ∀ q, q ∉ bs.map (·.b) → s'.edp q = s.edp q := by
  induction bs generalizing s with
  | nil => simp only [inner] at h; cases h; simp
  | cons b bs ih =>
    rw [inner] at h
    rw [List.map_cons, List.nodup_cons] at hn
    cases hu : update C P scf theta edpN dl b with
    | ok u =>
      obtain ⟨td, edp'⟩ := u
      rw [hu] at h
      simp only at h
      cases hb : pairForce C P theta td b with
      | ok f =>
        rw [hb] at h
        obtain ⟨h1, h2, h3⟩ := ih h hn.2
        refine ⟨h1, ?_, ?_⟩
        · intro b' hb'
          rcases List.mem_cons.1 hb' with rfl | hb'
          · refine ⟨td, ?_⟩
            rw [h3 _ hn.1]
            simp [hu]
          · exact h2 b' hb'
        · intro q hq
          rw [List.map_cons, List.mem_cons, not_or] at hq
          rw [h3 q hq.2]
          exact Function.update_of_ne hq.1 _ _
      | fail e => rw [hb] at h; cases h
      | ub => rw [hb] at h; cases h
    | fail e => rw [hu] at h; cases h
    | ub => rw [hu] at h; cases h

theorem points_spec {C : Config} {P : Const} {scf : Nat → ℝ} {yv : ℝ} {theta edpN lambdaN : Nat → ℝ}
    {bonds : List Bond} (hn : (bonds.map (·.b)).Nodup) {ps : List Nat} (hps : ps.Nodup)
    {s s' : PlasticState} (h : points C P scf yv theta edpN lambdaN bonds ps s = .ok s') :
    (∀ p ∈ ps, ∃ dl, flow C P scf yv theta edpN lambdaN p (bonds.filter fun b => b.i = p) = .ok dl ∧
        s'.lambda p = (if dl > 0 then lambdaN p + dl else lambdaN p) ∧
        ∀ b ∈ bonds, b.i = p → ∃ td, update C P scf theta edpN dl b = .ok (td, s'.edp b.b)) ∧
      (∀ p, p ∉ ps → s'.lambda p = s.lambda p) ∧
      ∀ b ∈ bonds, b.i ∉ ps → s'.edp b.b = s.edp b.b := by
  induction ps generalizing s with
  | nil => simp only [points] at h; cases h; simp
  | cons p ps ih =>
    rw [points] at h
    rw [List.nodup_cons] at hps
    cases hf : flow C P scf yv theta edpN lambdaN p (bonds.filter fun b => b.i = p) with
    | ok dl =>
      rw [hf] at h
      simp only at h
      split at h
      · next s1 hs1 =>
        have hn' : ((bonds.filter fun b => b.i = p).map (·.b)).Nodup :=
          hn.sublist (List.filter_sublist.map _)
        obtain ⟨g1, g2, g3⟩ := inner_spec hs1 hn'
        obtain ⟨k1, k2, k3⟩ := ih hps.2 h
        refine ⟨?_, ?_, ?_⟩
        · intro q hq
          rcases List.mem_cons.1 hq with rfl | hq
          · refine ⟨dl, hf, ?_, ?_⟩
            · rw [k2 _ hps.1, g1]
              simp only [Function.update_self]
            · intro b hb hbi
              rw [k3 b hb (hbi ▸ hps.1)]
              exact g2 b (List.mem_filter.2 ⟨hb, by simpa using hbi⟩)
          · exact k1 q hq
        · intro q hq
          rw [List.mem_cons, not_or] at hq
          rw [k2 q hq.2, g1]
          exact Function.update_of_ne hq.1 _ _
        · intro b hb hbi
          rw [List.mem_cons, not_or] at hbi
          rw [k3 b hb hbi.2, g3]
          intro hmem
          obtain ⟨b', hb', he⟩ := List.mem_map.1 hmem
          have hb'' := List.mem_filter.1 hb'
          have := List.inj_on_of_nodup_map hn hb''.1 hb he
          subst this
          exact hbi.1 (by simpa using hb''.2)
      · cases h
      · cases h
    | fail e => rw [hf] at h; cases h
    | ub => rw [hf] at h; cases h

/-- The steps of `material`. -/
theorem material_ok {C : Config} {P : Const} {scf : Nat → ℝ} {nbs : List (List Nat)}
    {th edpN lambdaN theta : Nat → ℝ} {s s' : PlasticState}
    (h : material C P scf nbs.length (encode nbs) th edpN lambdaN s = .ok (theta, s')) :
    ∃ yv, yieldValue P C.horizon = .ok yv ∧
      points C P scf yv theta edpN lambdaN (bondsOf nbs) (List.range nbs.length) { s with F := 0 } = .ok s' := by
  unfold material at h
  split at h
  · split at h
    · next s1 hp =>
      cases h
      unfold force at hp
      rw [visited_encode] at hp
      split at hp
      · next yv hyv => exact ⟨yv, hyv, hp⟩
      · cases hp
      · cases hp
    · cases h
    · cases h
  · cases h
  · cases h

theorem material_spec {C : Config} {P : Const} {scf : Nat → ℝ} {nbs : List (List Nat)}
    {th edpN lambdaN theta : Nat → ℝ} {s s' : PlasticState}
    (h : material C P scf nbs.length (encode nbs) th edpN lambdaN s = .ok (theta, s')) :
    ∃ yv, yieldValue P C.horizon = .ok yv ∧ ∀ p < nbs.length,
      ∃ dl, flow C P scf yv theta edpN lambdaN p ((bondsOf nbs).filter fun b => b.i = p) = .ok dl ∧
        s'.lambda p = (if dl > 0 then lambdaN p + dl else lambdaN p) ∧
        ∀ b ∈ bondsOf nbs, b.i = p → ∃ td, update C P scf theta edpN dl b = .ok (td, s'.edp b.b) := by
  obtain ⟨yv, hyv, hp⟩ := material_ok h
  obtain ⟨h1, _⟩ := points_spec (bondsOf_nodup nbs) List.nodup_range hp
  exact ⟨yv, hyv, fun p hlt => h1 p (List.mem_range.2 hlt)⟩

theorem yieldValue_eq {P : Const} {delta yv scf : ℝ} (hd : 0 < delta) (h : yieldValue P delta = .ok yv) :
    scf * scf * yv = virginYield P delta scf := by
  rw [yieldValue, if_neg (pow_ne_zero _ hd.ne')] at h
  cases h
  rw [virginYield]
  have := Real.pi_pos
  field_simp

theorem virginYield_nonneg {P : Const} {delta scf : ℝ} (hd : 0 < delta) : 0 ≤ virginYield P delta scf := by
  have := Real.pi_pos
  rw [virginYield]
  positivity

theorem measure_eq {C : Config} {P : Const} {scf : Nat → ℝ} {nbs : List (List Nat)}
    {theta edp : Nat → ℝ} {p : Nat} {ns : List Nat} (h : nbs[p]? = some ns) :
    yieldMeasure C (scf p * P.mu) nbs theta edp p ns =
      trialSum C theta edp (alphaOf C P scf p) ((bondsOf nbs).filter fun b => b.i = p) / 2 := by
  rw [yieldMeasure_eq h]
  have : 15 * (scf p * P.mu) / C.m p = alphaOf C P scf p := by rw [alphaOf]; ring
  rw [this]

theorem alpha_pos {C : Config} {P : Const} {scf : Nat → ℝ} {n p : Nat} (hs : Sound P scf n C) (hp : p < n) :
    0 < alphaOf C P scf p := by
  have h1 := hs.factor p hp
  have h2 := hs.weighted p hp
  have h3 := hs.shear
  rw [alphaOf]
  positivity

/-- The decision for a point in terms of the yield measure of the trial state. -/
theorem flow_spec {C : Config} {P : Const} {scf : Nat → ℝ} {nbs : List (List Nat)} {p : Nat} {ns : List Nat}
    (hp : nbs[p]? = some ns) (hs : Sound P scf nbs.length C) {yv : ℝ} (hyv : yieldValue P C.horizon = .ok yv)
    (theta edpN : Nat → ℝ) {lambdaN : Nat → ℝ} (hl : 0 ≤ lambdaN p) :
    ∃ dl, flow C P scf yv theta edpN lambdaN p ((bondsOf nbs).filter fun b => b.i = p) = .ok dl ∧
      ((yieldMeasure C (scf p * P.mu) nbs theta edpN p ns ≤
            virginYield P C.horizon (scf p) + P.H * lambdaN p ∧ dl = 0) ∨
        (virginYield P C.horizon (scf p) + P.H * lambdaN p <
            yieldMeasure C (scf p * P.mu) nbs theta edpN p ns ∧ 0 < dl ∧
          yieldMeasure C (scf p * P.mu) nbs theta edpN p ns =
            (virginYield P C.horizon (scf p) + P.H * (lambdaN p + dl)) *
              (1 + alphaOf C P scf p * dl) ^ 2)) := by
  have hlt := (List.getElem?_eq_some_iff.1 hp).1
  have ha := alpha_pos hs hlt
  rw [flow, if_neg (hs.weighted p hlt).ne']
  simp only
  rw [yieldValue_eq hs.horizon hyv, measure_eq hp, deviatoricNorm_eq]
  obtain ⟨d, hd, hspec⟩ := increment_spec
    (t := Real.sqrt (trialSum C theta edpN (alphaOf C P scf p) ((bondsOf nbs).filter fun b => b.i = p)))
    ha hs.hardens hl (virginYield_nonneg (P := P) (scf := scf p) hs.horizon)
  rw [Real.mul_self_sqrt (trialSum_nonneg hs.volumes _ _ _ _)] at hspec
  exact ⟨d, hd, hspec⟩

/-- In the plastic branch the elastic part of the extension is the trial one divided by one plus alpha times the
increment. -/
theorem update_scaled {C : Config} {P : Const} {scf theta edpN : Nat → ℝ} {dl : ℝ} {b : Bond} {td e : ℝ}
    (hdl : 0 < dl) (ha : 0 < alphaOf C P scf b.i)
    (h : update C P scf theta edpN dl b = .ok (td, e)) :
    edState C theta b - e = (edState C theta b - edpN b.b) / (1 + alphaOf C P scf b.i * dl) ∧
      e - edpN b.b = dl * (alphaOf C P scf b.i * (edState C theta b - e)) := by
  have hpos : 0 < 1 + alphaOf C P scf b.i * dl := by positivity
  rw [update] at h
  simp only at h
  rw [if_pos hdl, if_neg hpos.ne'] at h
  cases h
  generalize alphaOf C P scf b.i = a at *
  constructor <;> field_simp <;> ring

theorem update_elastic {C : Config} {P : Const} {scf theta edpN : Nat → ℝ} {b : Bond} {td e : ℝ}
    (h : update C P scf theta edpN 0 b = .ok (td, e)) : e = edpN b.b := by
  rw [update] at h
  simp only at h
  rw [if_neg (lt_irrefl _)] at h
  cases h
  rfl

/-! ### The scatter -/

/-- What every pair force satisfies. -/
def Pair (C : Config) (b : Bond) (g : V3) : Prop := Central C b g ∧ (C.damage b.b = 1 → g = 0)

theorem inner_scattered {C : Config} {P : Const} {scf theta edpN : Nat → ℝ} {dl : ℝ} {bs : List Bond}
    {s s' : PlasticState} (h : inner C P scf theta edpN dl bs s = .ok s') :
    Scattered (selfVol C) (nbrVol C) (Pair C) bs s.F s'.F := by
  induction bs generalizing s with
  | nil => simp only [inner] at h; cases h; exact Scattered.nil _ _ _ _
  | cons b bs ih =>
    rw [inner] at h
    cases hu : update C P scf theta edpN dl b with
    | ok u =>
      obtain ⟨td, edp'⟩ := u
      rw [hu] at h
      simp only at h
      cases hb : pairForce C P theta td b with
      | ok f =>
        rw [hb] at h
        exact Scattered.cons ⟨along_central hb, fun hd => along_damaged hb (by rw [hd]; ring)⟩ (ih h)
      | fail e => rw [hb] at h; cases h
      | ub => rw [hb] at h; cases h
    | fail e => rw [hu] at h; cases h
    | ub => rw [hu] at h; cases h

theorem points_scattered {C : Config} {P : Const} {scf : Nat → ℝ} {yv : ℝ} {theta edpN lambdaN : Nat → ℝ}
    {bonds : List Bond} {ps : List Nat} {s s' : PlasticState}
    (h : points C P scf yv theta edpN lambdaN bonds ps s = .ok s') :
    Scattered (selfVol C) (nbrVol C) (Pair C)
      (ps.flatMap fun p => bonds.filter fun b => b.i = p) s.F s'.F := by
  induction ps generalizing s with
  | nil => simp only [points] at h; cases h; exact Scattered.nil _ _ _ _
  | cons p ps ih =>
    rw [points] at h
    cases hf : flow C P scf yv theta edpN lambdaN p (bonds.filter fun b => b.i = p) with
    | ok dl =>
      rw [hf] at h
      simp only at h
      split at h
      · next s1 hs1 =>
        rw [List.flatMap_cons]
        exact (inner_scattered hs1).append (ih h)
      · cases h
      · cases h
    | fail e => rw [hf] at h; cases h
    | ub => rw [hf] at h; cases h

theorem material_scattered {C : Config} {P : Const} {scf : Nat → ℝ} {nbs : List (List Nat)}
    {th edpN lambdaN theta : Nat → ℝ} {s s' : PlasticState}
    (h : material C P scf nbs.length (encode nbs) th edpN lambdaN s = .ok (theta, s')) :
    Scattered (selfVol C) (nbrVol C) (Pair C)
      ((List.range nbs.length).flatMap fun p => (bondsOf nbs).filter fun b => b.i = p) 0 s'.F := by
  obtain ⟨yv, _, hp⟩ := material_ok h
  exact points_scattered hp

/-! ### Definedness -/

theorem inner_ok {C : Config} {P : Const} {scf theta edpN : Nat → ℝ} {dl : ℝ} {bs : List Bond}
    (ha : ∀ b ∈ bs, 0 < alphaOf C P scf b.i) (hb : ∀ b ∈ bs, C.y b.j ≠ C.y b.i) (s : PlasticState) :
    ∃ s', inner C P scf theta edpN dl bs s = .ok s' := by
  induction bs generalizing s with
  | nil => exact ⟨s, rfl⟩
  | cons b bs ih =>
    rw [inner]
    obtain ⟨u, hu⟩ : ∃ u, update C P scf theta edpN dl b = .ok u := by
      have := ha b List.mem_cons_self
      rw [update]
      simp only
      split
      · next hdl =>
        have hdl' : 0 < dl := hdl
        rw [if_neg (by positivity)]
        exact ⟨_, rfl⟩
      · exact ⟨_, rfl⟩
    rw [hu]
    simp only [pairForce]
    rw [along_ok (hb b List.mem_cons_self)]
    exact ih (fun b' hb' => ha b' (List.mem_cons_of_mem _ hb'))
      (fun b' hb' => hb b' (List.mem_cons_of_mem _ hb')) _

theorem material_defined {C : Config} {P : Const} {scf : Nat → ℝ} {nbs : List (List Nat)}
    (hpr : Proper C nbs) (hs : Sound P scf nbs.length C) {lambdaN : Nat → ℝ}
    (hl : ∀ p < nbs.length, 0 ≤ lambdaN p) (th edpN : Nat → ℝ) (s : PlasticState) :
    ∃ theta s', material C P scf nbs.length (encode nbs) th edpN lambdaN s = .ok (theta, s') := by
  have hpr' : Proper { C with thermal := none } nbs := hpr
  obtain ⟨theta, ht⟩ := dilatation_ok hpr' th
  rw [material, ht]
  simp only
  have hyv : yieldValue P C.horizon =
      .ok (25 * P.yieldStress * P.yieldStress / 8 / Real.pi / C.horizon ^ 5) := by
    rw [yieldValue, if_neg (pow_ne_zero _ hs.horizon.ne')]
  have key : ∀ (ps : List Nat) (s : PlasticState), (∀ p ∈ ps, p < nbs.length) →
      ∃ s', points C P scf (25 * P.yieldStress * P.yieldStress / 8 / Real.pi / C.horizon ^ 5) theta
        edpN lambdaN (bondsOf nbs) ps s = .ok s' := by
    intro ps
    induction ps with
    | nil => intro s _; exact ⟨s, rfl⟩
    | cons p ps ih =>
      intro s hps
      rw [points]
      have hp := hps p List.mem_cons_self
      obtain ⟨dl, hdl, _⟩ := flow_spec (List.getElem?_eq_getElem hp) hs hyv theta edpN (hl p hp)
      rw [hdl]
      simp only
      obtain ⟨s1, hs1⟩ := inner_ok (C := C) (P := P) (scf := scf) (theta := theta) (edpN := edpN) (dl := dl)
        (bs := (bondsOf nbs).filter fun b => b.i = p)
        (fun b hb => by
          have : b.i = p := by simpa using (List.mem_filter.1 hb).2
          rw [this]
          exact alpha_pos hs hp)
        (fun b hb => (hpr _ _ (mem_bondsOf (List.mem_filter.1 hb).1)).2.1)
        { s with lambda := Function.update s.lambda p (if dl > 0 then lambdaN p + dl else lambdaN p) }
      rw [hs1]
      exact ih s1 fun q hq => hps q (List.mem_cons_of_mem _ hq)
  obtain ⟨s', hs'⟩ := key (List.range nbs.length) { s with F := 0 } fun p hp => List.mem_range.1 hp
  refine ⟨theta, s', ?_⟩
  rw [force, hyv, visited_encode]
  simp only
  rw [hs']

end Verif.Hardening
