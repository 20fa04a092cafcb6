import Verif.Fad.PlasticProps
import Verif.Fad.SymProps

/-! The tangent of a neighborhood of the elastic-plastic material as a bilinear form. -/

noncomputable section

namespace Verif.Fad

open Verif Verif.Neigh Verif.Mech Verif.Tangent Verif.Energy Verif.Lps
open scoped Classical Topology Matrix

/-! ### Rates -/

/-- The rate of the trial extension. -/
def trialRate (C : Config) (nbs : List (List Nat)) (d : Nat → V3) (b : Bond) : ℝ :=
  rate C d b - thetaRate C nbs d 0 * C.zeta b / 3

/-- The rate of the squared norm. -/
def normRate (C : Config) (edp : Nat → ℝ) (alpha th : ℝ) (nbs : List (List Nat)) (d : Nat → V3) : ℝ :=
  ((bondsOf nbs).map fun b => 2 * ((1 - C.damage b.b) * alpha) ^ 2 * trialOf C edp th b * trialRate C nbs d b * C.v b.j).sum

/-- The rate of the deviatoric force state; `e'` is the rate of the trial extension `e`, `n2'` that of the squared norm. -/
def tdRate (yv alpha : ℝ) (norm : Option ℝ) (e e' n2' : ℝ) : ℝ :=
  match norm with
  | none => alpha * e'
  | some n => Real.sqrt (2 * yv) * alpha * (e' / n - e * (n2' / (2 * n)) / n ^ 2)

/-- The rate of the tension. -/
def plasticTensionRate (C : Config) (P : PlasticConst) (edp : Nat → ℝ) (yv th : ℝ) (norm : Option ℝ) (nbs : List (List Nat))
    (d : Nat → V3) (b : Bond) : ℝ :=
  (1 - C.damage b.b) * (3 * P.K * thetaRate C nbs d 0 / C.m b.i * C.zeta b + (1 - C.damage b.b) *
    tdRate yv (15 * P.mu / C.m b.i) norm (trialOf C edp th b) (trialRate C nbs d b)
      (normRate C edp (15 * P.mu / C.m 0) th nbs d))

/-- The rate of the pair force. -/
def plasticForceRate (C : Config) (P : PlasticConst) (edp : Nat → ℝ) (yv th : ℝ) (norm : Option ℝ) (nbs : List (List Nat))
    (d : Nat → V3) (b : Bond) : V3 :=
  ((plasticTensionRate C P edp yv th norm nbs d b * C.dY b - tensionOf C P edp yv th norm b * rate C d b) / C.dY b ^ 2) • C.yd b +
    (tensionOf C P edp yv th norm b / C.dY b) • (d b.j - d b.i)

theorem shifted_zero (C : Config) (d : Nat → V3) : shifted C d 0 = C := by
  unfold shifted
  simp

theorem dY_deriv (C : Config) (d : Nat → V3) (b : Bond) (h : C.dY b ≠ 0) :
    HasDerivAt (fun s => (shifted C d s).dY b) (rate C d b) 0 := by
  have hl := len_deriv (C.yd b) (d b.j - d b.i) h
  have e : ∀ s : ℝ, (shifted C d s).dY b = len (C.yd b + s • (d b.j - d b.i)) := by
    intro s
    unfold Config.dY Config.yd shifted
    congr 1
    simp only
    module
  simp only [e]
  exact hl

theorem yd_deriv (C : Config) (d : Nat → V3) (b : Bond) (c : Fin 3) :
    HasDerivAt (fun s => (shifted C d s).yd b c) ((d b.j - d b.i) c) 0 := by
  have e : ∀ s : ℝ, (shifted C d s).yd b c = C.yd b c + s * (d b.j - d b.i) c := by
    intro s
    simp only [Config.yd, shifted, Pi.sub_apply, Pi.add_apply, Pi.smul_apply, smul_eq_mul]
    ring
  simp only [e]
  simpa using ((hasDerivAt_id (0 : ℝ)).mul_const ((d b.j - d b.i) c)).const_add (C.yd b c)

section rates

variable {C : Config} {nbs : List (List Nat)} (d : Nat → V3) (h : ∀ b ∈ bondsOf nbs, C.dY b ≠ 0)

include h in
theorem trial_deriv (edp : Nat → ℝ) {b : Bond} (hb : b ∈ bondsOf nbs) :
    HasDerivAt (fun s => trialOf (shifted C d s) edp (theta' (shifted C d s) nbs 0) b) (trialRate C nbs d b) 0 :=
  (((dY_deriv C d b (h b hb)).sub_const (C.zeta b)).sub (((theta_deriv d 0 h).mul_const (C.zeta b)).div_const 3)).sub_const (edp b.b)

include h in
theorem norm_deriv (edp : Nat → ℝ) (alpha : ℝ) :
    HasDerivAt (fun s => normOf (shifted C d s) edp alpha (theta' (shifted C d s) nbs 0) (bondsOf nbs))
      (normRate C edp alpha (theta' C nbs 0) nbs d) 0 := by
  unfold normOf normRate
  refine list_deriv fun b hb => ?_
  have := (((trial_deriv d h edp hb).const_mul ((1 - C.damage b.b) * alpha)).pow 2).mul_const (C.v b.j)
  refine this.congr_deriv ?_
  simp only [shifted_zero]
  push_cast
  ring

/-- The norm along the shift in a step that stays of the same kind. -/
def heldNorm (C : Config) (nbs : List (List Nat)) (edp : Nat → ℝ) (alpha : ℝ) (yields : Bool) (d : Nat → V3) (s : ℝ) : Option ℝ :=
  if yields then some (Real.sqrt (normOf (shifted C d s) edp alpha (theta' (shifted C d s) nbs 0) (bondsOf nbs))) else none

/-- The norm now. -/
def nowNorm (C : Config) (nbs : List (List Nat)) (edp : Nat → ℝ) (alpha : ℝ) (yields : Bool) : Option ℝ :=
  if yields then some (Real.sqrt (normOf C edp alpha (theta' C nbs 0) (bondsOf nbs))) else none

include h in
theorem pair_deriv {P : PlasticConst} {edp : Nat → ℝ} {yv : ℝ} {yields : Bool}
    (hy : yields = true → 0 < normOf C edp (15 * P.mu / C.m 0) (theta' C nbs 0) (bondsOf nbs)) {b : Bond} (hb : b ∈ bondsOf nbs)
    (c : Fin 3) :
    HasDerivAt (fun s => pairOf (shifted C d s) P edp yv (theta' (shifted C d s) nbs 0)
      (heldNorm C nbs edp (15 * P.mu / C.m 0) yields d s) b c)
      (plasticForceRate C P edp yv (theta' C nbs 0) (nowNorm C nbs edp (15 * P.mu / C.m 0) yields) nbs d b c) 0 := by
  have htd : HasDerivAt (fun s => tdOf yv (15 * P.mu / C.m b.i) (heldNorm C nbs edp (15 * P.mu / C.m 0) yields d s)
      (trialOf (shifted C d s) edp (theta' (shifted C d s) nbs 0) b))
      (tdRate yv (15 * P.mu / C.m b.i) (nowNorm C nbs edp (15 * P.mu / C.m 0) yields) (trialOf C edp (theta' C nbs 0) b)
        (trialRate C nbs d b) (normRate C edp (15 * P.mu / C.m 0) (theta' C nbs 0) nbs d)) 0 := by
    have he := trial_deriv d h edp hb
    cases yields with
    | false => exact he.const_mul _
    | true =>
      have hn := norm_deriv d h edp (15 * P.mu / C.m 0)
      have h0 := hy rfl
      have hs := hn.sqrt (by rw [shifted_zero]; exact h0.ne')
      have hq := Real.sqrt_pos.2 h0
      have := ((he.const_mul (15 * P.mu / C.m b.i)).const_mul (Real.sqrt (2 * yv))).div hs (by rw [shifted_zero]; exact hq.ne')
      refine this.congr_deriv ?_
      simp only [shifted_zero, nowNorm, tdRate, if_true]
      field_simp
  have hT : HasDerivAt (fun s => tensionOf (shifted C d s) P edp yv (theta' (shifted C d s) nbs 0)
      (heldNorm C nbs edp (15 * P.mu / C.m 0) yields d s) b)
      (plasticTensionRate C P edp yv (theta' C nbs 0) (nowNorm C nbs edp (15 * P.mu / C.m 0) yields) nbs d b) 0 :=
    (((((theta_deriv d 0 h).const_mul (3 * P.K)).div_const (C.m b.i)).mul_const (C.zeta b)).add
      (htd.const_mul (1 - C.damage b.b))).const_mul (1 - C.damage b.b)
  have hn : heldNorm C nbs edp (15 * P.mu / C.m 0) yields d 0 = nowNorm C nbs edp (15 * P.mu / C.m 0) yields := by
    unfold heldNorm nowNorm
    rw [shifted_zero]
  have := (hT.div (dY_deriv C d b (h b hb)) (by rw [shifted_zero]; exact h b hb)).mul (yd_deriv C d b c)
  refine this.congr_deriv ?_
  simp only [Pi.div_apply, shifted_zero, hn, plasticForceRate, Pi.add_apply, Pi.smul_apply, smul_eq_mul]

end rates

theorem local_shifted (S : PlasticSolid) (gids : List Nat) (y : Nat → ℝ) (c : Nat) (s : ℝ) :
    S.local gids (bump y c s) = shifted (S.local gids y) (single c) s := by
  unfold PlasticSolid.local
  rw [hood_shifted]
  rfl

/-- The derivatives computed in a neighborhood. -/
theorem plasticLocal_eq {S : PlasticSolid} (hv : ∀ g, 0 ≤ S.v g) {gids : List Nat} {y : Nat → ℝ} {f : Nat → Num}
    (h : plasticAd S gids y = some f) {yv : ℝ} (hyv : yieldValue S.const S.horizon = .ok yv) (h0 : 0 < yv) (r c : Nat) :
    (f r).dx c = ((bondsOf (hoodNbs (gids.length - 1))).map fun b => pull (selfVol (S.local gids y)) (nbrVol (S.local gids y)) (r / 3)
      (b, plasticForceRate (S.local gids y) S.const (S.edp (gids.getD 0 0)) yv (theta' (S.local gids y) (hoodNbs (gids.length - 1)) 0)
        (stepOf yv (hoodNorm S gids y)) (hoodNbs (gids.length - 1)) (single c) b)).sum ⟨r % 3, Nat.mod_lt _ (by omega)⟩ := by
  obtain ⟨hm, hb, yv', norm2, hyv', hN, hf⟩ := plasticAd_parts h c
  rw [hyv] at hyv'
  cases hyv'
  have e0 : bump y c 0 = y := by simp [bump]
  have hn2 : norm2.val = hoodNorm S gids y := by
    have := hN.1
    simp only [e0] at this
    exact this.symm
  have hd : ∀ b ∈ bondsOf (hoodNbs (gids.length - 1)), (S.local gids y).dY b ≠ 0 := by
    intro b hb'
    obtain ⟨q, hq⟩ := hb b hb'
    exact (bondLength_val (S := S.toSolid) (gids := gids) hq).2
  have h1 := (hf r).2
  refine h1.unique ?_
  unfold plasticValue
  simp only [local_shifted]
  apply list_deriv_map
  intro b hb'
  refine pull_deriv (vi := selfVol (S.local gids y)) (vj := nbrVol (S.local gids y)) (k := r / 3) (b := b) ?_
  set yields : Bool := decide (Real.sqrt norm2.val * Real.sqrt norm2.val / 2 - yv > 0) with hyl
  have hnow : stepOf yv (hoodNorm S gids y) = nowNorm (S.local gids y) (hoodNbs (gids.length - 1)) (S.edp (gids.getD 0 0))
      (15 * S.const.mu / (S.local gids y).m 0) yields := by
    unfold stepOf nowNorm
    rw [hyl, hn2]
    simp only [decide_eq_true_eq]
    rfl
  have hheld : ∀ s, heldStep yv norm2 (fun s => hoodNorm S gids (bump y c s)) s = heldNorm (S.local gids y) (hoodNbs (gids.length - 1))
      (S.edp (gids.getD 0 0)) (15 * S.const.mu / (S.local gids y).m 0) yields (single c) s := by
    intro s
    unfold heldStep heldNorm hoodNorm
    rw [hyl]
    simp only [decide_eq_true_eq, local_shifted]
    rfl
  rw [hnow]
  simp only [hheld]
  refine pair_deriv (single c) hd ?_ hb' _
  intro hy
  have hy : Real.sqrt norm2.val * Real.sqrt norm2.val / 2 - yv > 0 := of_decide_eq_true hy
  refine lt_of_le_of_ne (hoodNorm_nonneg hv gids y) fun h00 => ?_
  have : norm2.val = 0 := by rw [hn2]; exact h00.symm
  rw [this] at hy
  simp at hy
  linarith

/-! ### The form -/

theorem plasticForceRate_congr {C : Config} {P : PlasticConst} {edp : Nat → ℝ} {yv th : ℝ} {norm : Option ℝ} {nbs : List (List Nat)}
    {d d' : Nat → V3} (h : ∀ b ∈ bondsOf nbs, d b.i = d' b.i ∧ d b.j = d' b.j) {b : Bond} (hb : b ∈ bondsOf nbs) :
    plasticForceRate C P edp yv th norm nbs d b = plasticForceRate C P edp yv th norm nbs d' b := by
  have hr : ∀ b ∈ bondsOf nbs, rate C d b = rate C d' b := by
    intro b hb
    obtain ⟨h1, h2⟩ := h b hb
    unfold rate
    rw [h1, h2]
  have ht : ∀ p, thetaRate C nbs d p = thetaRate C nbs d' p := by
    intro p
    unfold thetaRate
    apply sum_congr'
    intro b hb
    rw [hr b (List.mem_filter.1 hb).1]
  have hq : ∀ b ∈ bondsOf nbs, trialRate C nbs d b = trialRate C nbs d' b := by
    intro b hb
    unfold trialRate
    rw [hr b hb, ht]
  have hn : ∀ alpha, normRate C edp alpha th nbs d = normRate C edp alpha th nbs d' := by
    intro alpha
    unfold normRate
    apply sum_congr'
    intro b hb
    rw [hq b hb]
  obtain ⟨h1, h2⟩ := h b hb
  unfold plasticForceRate plasticTensionRate
  rw [hr b hb, ht, hq b hb, hn, h1, h2]

theorem plasticForceRate_zero {C : Config} {P : PlasticConst} {edp : Nat → ℝ} {yv th : ℝ} {norm : Option ℝ} {nbs : List (List Nat)}
    {d : Nat → V3} (h : ∀ b ∈ bondsOf nbs, d b.j = d b.i) {b : Bond} (hb : b ∈ bondsOf nbs) :
    plasticForceRate C P edp yv th norm nbs d b = 0 := by
  have hr : ∀ b ∈ bondsOf nbs, rate C d b = 0 := by
    intro b hb
    unfold rate
    rw [h b hb]
    simp
  have ht : ∀ p, thetaRate C nbs d p = 0 := by
    intro p
    unfold thetaRate
    apply List.sum_eq_zero
    intro x hx
    obtain ⟨b, hb, rfl⟩ := List.mem_map.1 hx
    rw [hr b (List.mem_filter.1 hb).1]
    simp
  have hq : ∀ b ∈ bondsOf nbs, trialRate C nbs d b = 0 := by
    intro b hb
    unfold trialRate
    rw [hr b hb, ht]
    simp
  have hn : ∀ alpha, normRate C edp alpha th nbs d = 0 := by
    intro alpha
    unfold normRate
    apply List.sum_eq_zero
    intro x hx
    obtain ⟨b, hb, rfl⟩ := List.mem_map.1 hx
    rw [hq b hb]
    simp
  unfold plasticForceRate plasticTensionRate tdRate
  rw [hr b hb, ht, hq b hb, hn, h b hb]
  cases norm <;> simp

/-- The tangent of a neighborhood as a bilinear form. -/
def plasticForm (C : Config) (P : PlasticConst) (edp : Nat → ℝ) (yv : ℝ) (norm : Option ℝ) (nbs : List (List Nat)) (w d : Nat → V3) : ℝ :=
  -((bondsOf nbs).map fun b => C.v b.i * C.v b.j * ((w b.j - w b.i) ⬝ᵥ
    plasticForceRate C P edp yv (theta' C nbs 0) norm nbs d b)).sum

/-- The form of a neighborhood, for fields over all points. -/
def plasticHood (S : PlasticSolid) (Y : Nat → ℝ) (h : List Nat) (w d : Nat → V3) : ℝ :=
  plasticForm (S.local h (gather 3 h Y)) S.const (S.edp (h.getD 0 0)) S.yieldLimit (stepOf S.yieldLimit (S.trial Y h))
    (hoodNbs (h.length - 1)) (pulled h w) (pulled h d)

/-- The entries are those of the form. -/
theorem plasticEntry_eq {S : PlasticSolid} (hS : S.Ductile) {F : Fields} (hvol : F.vol = S.v) {h : List Nat} (h0 : 0 < h.length)
    (hn : h.Nodup) (hs : ∃ f, plasticAd S h (gather 3 h F.y) = some f) (R C : Nat) :
    adEntry (plasticAd S) F h R C = plasticHood S F.y h (single R) (single C) := by
  obtain ⟨f, hf⟩ := hs
  obtain ⟨hyv, hpos⟩ := yieldLimit_ok hS
  have key := plasticLocal_eq hS.v hf hyv hpos
  rw [trial_eq h0] at key
  unfold plasticHood plasticForm
  set G := plasticForceRate (S.local h (gather 3 h F.y)) S.const (S.edp (h.getD 0 0)) S.yieldLimit
    (theta' (S.local h (gather 3 h F.y)) (hoodNbs (h.length - 1)) 0) (stepOf S.yieldLimit (S.trial F.y h)) (hoodNbs (h.length - 1)) with hG
  have hrow := row_eq (S := S.toSolid) (Y := F.y) h0 hn R (G (pulled h (single C)))
  refine Eq.trans ?_ hrow.symm
  unfold adEntry
  by_cases hR : R / 3 ∈ h
  · rw [if_pos hR]
    by_cases hC : C / 3 ∈ h
    · rw [if_pos ⟨hR, hC⟩, hf]
      simp only
      rw [key, hvol, mul_comm]
      congr 1
      have e1 : slot 3 h R / 3 = h.idxOf (R / 3) := slot_div (by omega) h R
      have e2 : slot 3 h R % 3 = R % 3 := slot_mod 3 h R
      simp only [e1, e2]
      refine congrFun (congrArg List.sum (List.map_congr_left fun b hb => ?_)) _
      rw [hG, plasticForceRate_congr (d' := pulled h (single C)) _ hb]
      · rfl
      intro b hb
      obtain ⟨h1, h2⟩ := bond_lt h0 hb
      exact ⟨pulled_slot hn hC h1, pulled_slot hn hC h2⟩
    · rw [if_neg fun h => hC h.2]
      have hz : ∀ p < h.length, pulled h (single C) p = 0 := by
        intro p hp
        funext a
        unfold pulled
        rw [single_apply, if_neg]
        · rfl
        · intro e
          apply hC
          have : C / 3 = h.getD p 0 := by have := a.isLt; omega
          rw [this, getD_lt hp]
          exact List.getElem_mem _
      have hl : ∀ b ∈ bondsOf (hoodNbs (h.length - 1)), pull (selfVol (S.toSolid.hood h (gather 3 h F.y)))
          (nbrVol (S.toSolid.hood h (gather 3 h F.y))) (h.idxOf (R / 3)) (b, G (pulled h (single C)) b) = 0 := by
        intro b hb
        rw [hG, plasticForceRate_zero _ hb]
        · simp [pull]
        · intro b hb
          obtain ⟨h1, h2⟩ := bond_lt h0 hb
          rw [hz _ h1, hz _ h2]
      rw [List.map_congr_left hl]
      simp
  · rw [if_neg hR, if_neg fun h => hR h.1]

/-- The entries of the assembled tangent. -/
theorem plasticTangent_eq {E : PlasticSolid} (hE : E.Ductile) {F : Fields} (hvol : F.vol = E.v) {S : Scratch} {parts : List Part}
    (hv : ∀ p ∈ parts, p.Valid) (hn : ∀ h ∈ allHoods parts, h.Nodup) {R : Nat → Finset Nat} {A : Sparse}
    (h : plasticTangent (plasticAd E) F S (parts.map Part.proc) (Sparse.zero R) = .ok A) :
    (∀ g ∈ allHoods parts, ∃ f, plasticAd E g (gather 3 g F.y) = some f) ∧
    ∀ r c, A.val r c = ((allHoods parts).map fun g => plasticHood E F.y g (single r) (single c)).sum := by
  obtain ⟨h1, h2⟩ := adTangent_ok (kind := .full) hv hn (plasticTangent_iff.1 h)
  refine ⟨h1, fun r c => ?_⟩
  rw [h2]
  simp only [Sparse.zero, zero_add]
  congr 1
  apply List.map_congr_left
  intro g hg
  rw [if_pos (show Kept .full r c from trivial)]
  exact plasticEntry_eq hE hvol (allHoods_pos hv hg) (hn g hg) (h1 g hg) r c

end Verif.Fad
