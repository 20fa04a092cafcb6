import Verif.Needleman.RateProps

/-! C160 (isotropy), C161 (whole runs and parameters). -/

noncomputable section

namespace Verif.Needleman

open Verif Verif.Neigh Verif.Mech Verif.Tensor Verif.Correspondence Matrix
open scoped Classical

/-! ### C160: isotropy -/

section Conj

variable {Q : Mat}

theorem mags_conj (hQ : Qᵀ * Q = 1) {S S' : M9} (h : S'.toMatrix = Q * S.toMatrix * Qᵀ) : magnitude S' = magnitude S := by
  rw [magnitude_eq, magnitude_eq, h, Return.norm_conj hQ]

theorem contract_conj (hQ : Qᵀ * Q = 1) {a a' b b' : M9} (ha : a'.toMatrix = Q * a.toMatrix * Qᵀ)
    (hb : b'.toMatrix = Q * b.toMatrix * Qᵀ) : contract a' b' = contract a b := by
  rw [contract_eq, contract_eq, ha, hb, Return.ip_conj hQ]

theorem smul_conj (c : ℝ) (a : Mat) : c • (Q * a * Qᵀ) = Q * (c • a) * Qᵀ := by
  rw [Matrix.mul_smul, Matrix.smul_mul]

theorem devStress_conj (hQ : Qᵀ * Q = 1) {a a' : M9} (h : a'.toMatrix = Q * a.toMatrix * Qᵀ) :
    (devStress a').toMatrix = Q * (devStress a).toMatrix * Qᵀ := by
  rw [devStress_eq, devStress_eq, h, Return.dev_conj hQ]

theorem devStrain_conj (hQ : Qᵀ * Q = 1) (dt : ℝ) {D D' : M9} (h : D'.toMatrix = Q * D.toMatrix * Qᵀ) :
    (devStrain dt D').toMatrix = Q * (devStrain dt D).toMatrix * Qᵀ := by
  rw [devStrain_eq, devStrain_eq, h, smul_conj, Return.dev_conj hQ]

theorem elastic_conj (hQ : Qᵀ * Q = 1) (P : Const) (dt : ℝ) {D D' sigma sigma' : M9}
    (hD : D'.toMatrix = Q * D.toMatrix * Qᵀ) (hs : sigma'.toMatrix = Q * sigma.toMatrix * Qᵀ) :
    elastic P dt D' sigma' = Q * elastic P dt D sigma * Qᵀ := by
  have hQ' : Q * Qᵀ = 1 := mul_eq_one_comm.mp hQ
  unfold elastic hooke
  rw [hD, hs, smul_conj, Return.trace_conj hQ]
  simp only [Matrix.mul_add, Matrix.add_mul, Matrix.mul_smul, Matrix.smul_mul, Matrix.mul_one, hQ']

theorem trial_conj (hQ : Qᵀ * Q = 1) (bulk shear dt : ℝ) {D D' sigma sigma' : M9}
    (hD : D'.toMatrix = Q * D.toMatrix * Qᵀ) (hs : sigma'.toMatrix = Q * sigma.toMatrix * Qᵀ) :
    (trialStress bulk shear dt D' sigma').toMatrix = Q * (trialStress bulk shear dt D sigma).toMatrix * Qᵀ := by
  have hQ' : Q * Qᵀ = 1 := mul_eq_one_comm.mp hQ
  rw [trial_eq, trial_eq]
  unfold hooke
  rw [hD, hs, smul_conj, Return.trace_conj hQ]
  simp only [Matrix.mul_add, Matrix.add_mul, Matrix.mul_smul, Matrix.smul_mul, Matrix.mul_one, hQ']

/-- Returning a rotated stress. -/
theorem plasticOut_conj (hQ : Qᵀ * Q = 1) (shear y eqps : ℝ) {e e' t t' sigma sigma' : M9}
    (he : e'.toMatrix = Q * e.toMatrix * Qᵀ) (ht : t'.toMatrix = Q * t.toMatrix * Qᵀ)
    (hs : sigma'.toMatrix = Q * sigma.toMatrix * Qᵀ) :
    (plasticOut shear y e' t' sigma' eqps).stress.toMatrix =
        Q * (plasticOut shear y e t sigma eqps).stress.toMatrix * Qᵀ ∧
      (plasticOut shear y e' t' sigma' eqps).eqps = (plasticOut shear y e t sigma eqps).eqps ∧
      (plasticOut shear y e' t' sigma' eqps).mises = (plasticOut shear y e t sigma eqps).mises := by
  have hQ' : Q * Qᵀ = 1 := mul_eq_one_comm.mp hQ
  have hS := devStress_conj hQ ht
  have hSN := devStress_conj hQ hs
  have hm := mags_conj hQ hS
  have hmN := mags_conj hQ hSN
  have hr : (returned (devStress t') y).toMatrix = Q * (returned (devStress t) y).toMatrix * Qᵀ := by
    rw [returned_eq, returned_eq, hS]
    unfold factor
    rw [hm, smul_conj]
  refine ⟨?_, ?_, ?_⟩
  · show (diagAdd _ _).toMatrix = Q * (diagAdd _ _).toMatrix * Qᵀ
    rw [toMatrix_diagAdd, toMatrix_diagAdd, hr, spherical_eq, spherical_eq, ht, Return.mean_conj hQ, Matrix.mul_add,
      Matrix.add_mul, Matrix.mul_smul, Matrix.smul_mul, Matrix.mul_one, hQ']
  · show eqps + eqpsIncrement _ _ _ _ _ = eqps + eqpsIncrement _ _ _ _ _
    unfold eqpsIncrement
    rw [contract_conj hQ (a := plasticIncrement shear e (returned (devStress t) y) (devStress sigma))
      (b := meanDirection (magnitude (devStress t)) (returned (devStress t) y) (devStress sigma))]
    · unfold plasticIncrement
      rw [toMatrix_sub9, toMatrix_sub9, toMatrix_scaled, toMatrix_scaled, toMatrix_scaled, toMatrix_scaled,
        toMatrix_sub9, toMatrix_sub9, he, hr, hSN]
      simp only [Matrix.mul_sub, Matrix.sub_mul, Matrix.mul_smul, Matrix.smul_mul]
    · unfold meanDirection
      rw [toMatrix_scaled, toMatrix_scaled, toMatrix_addScaled, toMatrix_addScaled, toMatrix_scaled, toMatrix_scaled,
        toMatrix_scaled, toMatrix_scaled, hr, hSN, hm, hmN]
      simp only [Matrix.mul_add, Matrix.add_mul, Matrix.mul_smul, Matrix.smul_mul]
  · show misesOf _ = misesOf _
    rw [misesOf_eq, misesOf_eq, hr, Return.norm_conj hQ]

end Conj

/-- **C160.**  A step with rotated (or reflected) rate of deformation and stress gives the rotated stress, the
same plastic strain and the same von Mises stress. -/
theorem C160_isotropic {P : Const} (hP : P.Sound) {Q : Mat} (hQ : Qᵀ * Q = 1) {yield dt eqps : ℝ} (hdt : 0 < dt)
    (he : 0 ≤ eqps) {D D' sigma sigma' : M9} (hD : D'.toMatrix = Q * D.toMatrix * Qᵀ)
    (hs : sigma'.toMatrix = Q * sigma.toMatrix * Qᵀ) :
    ∃ o o', point P yield dt D sigma eqps = .ok o ∧ point P yield dt D' sigma' eqps = .ok o' ∧
      o'.stress.toMatrix = Q * o.stress.toMatrix * Qᵀ ∧ o'.eqps = o.eqps ∧ o'.mises = o.mises := by
  have hE := elastic_conj hQ P dt hD hs
  have hv : vonMises (elastic P dt D' sigma') = vonMises (elastic P dt D sigma) := by
    rw [hE, Return.vonMises_conj hQ]
  have ht : (trialStress P.bulk P.shear dt D' sigma').toMatrix =
      Q * (trialStress P.bulk P.shear dt D sigma).toMatrix * Qᵀ := by
    rw [trial_eq, trial_eq]
    exact hE
  have hfound : found P yield dt D' sigma' eqps = found P yield dt D sigma eqps := by
    unfold found search
    rw [contract_conj hQ (devStress_conj hQ ht) (devStrain_conj hQ dt hD), mags_conj hQ (devStress_conj hQ ht),
      contract_conj hQ (devStress_conj hQ hs) (devStress_conj hQ hs)]
  obtain ⟨o, ho, hc⟩ := point_eq (yield := yield) hP hdt he D sigma
  obtain ⟨o', ho', hc'⟩ := point_eq (yield := yield) hP hdt he D' sigma'
  refine ⟨o, o', ho, ho', ?_⟩
  rw [hfound, hv] at hc'
  have hst : Stays P dt D sigma eqps o → Stays P dt D' sigma' eqps o' →
      o'.stress.toMatrix = Q * o.stress.toMatrix * Qᵀ ∧ o'.eqps = o.eqps ∧ o'.mises = o.mises := by
    rintro rfl rfl
    exact ⟨ht, rfl, hv⟩
  rcases hc with ⟨a, b⟩ | ⟨a, r, hr, -, -, ⟨b, c⟩ | ⟨b, c⟩⟩ <;>
    rcases hc' with ⟨a', b'⟩ | ⟨a', r', hr', -, -, ⟨b', c'⟩ | ⟨b', c'⟩⟩
  · exact hst b b'
  · exact absurd a (not_lt.mpr a')
  · exact absurd a (not_lt.mpr a')
  · exact absurd a' (not_lt.mpr a)
  · exact hst c c'
  · rw [hr] at hr'
    cases hr'
    exact absurd b' (not_lt.mpr b)
  · exact absurd a' (not_lt.mpr a)
  · rw [hr] at hr'
    cases hr'
    exact absurd b (not_lt.mpr b')
  · rw [hr] at hr'
    cases hr'
    rw [c, c']
    exact plasticOut_conj hQ P.shear _ eqps (devStrain_conj hQ dt hD) ht hs

example : Return.quarterᵀ * Return.quarter = 1 ∧
    (shearBy (-(3 / 8))).toMatrix = Return.quarter * (shearBy (3 / 8)).toMatrix * Return.quarterᵀ ∧
    (zero : M9).toMatrix = Return.quarter * (zero : M9).toMatrix * Return.quarterᵀ := by
  refine ⟨?_, ?_, by simp [toMatrix_zero]⟩
  · ext i j
    fin_cases i <;> fin_cases j <;> simp [Return.quarter, Matrix.mul_apply, Fin.sum_univ_three]
  · ext i j
    fin_cases i <;> fin_cases j <;>
      simp [Return.quarter, shearBy, M9.toMatrix, Matrix.mul_apply, Fin.sum_univ_three]

/-- **C160** for the perfectly plastic material. -/
theorem C160_perfect {bulk shear yield dt eqps : ℝ} (hsh : shear ≠ 0) {Q : Mat} (hQ : Qᵀ * Q = 1)
    {D D' sigma sigma' : M9} (hD : D'.toMatrix = Q * D.toMatrix * Qᵀ)
    (hs : sigma'.toMatrix = Q * sigma.toMatrix * Qᵀ) :
    ∃ o o', perfectPoint bulk shear yield dt D sigma eqps = .ok o ∧
      perfectPoint bulk shear yield dt D' sigma' eqps = .ok o' ∧
      o'.stress.toMatrix = Q * o.stress.toMatrix * Qᵀ ∧ o'.eqps = o.eqps ∧ o'.mises = o.mises := by
  have ht := trial_conj hQ bulk shear dt hD hs
  have hv : misesOf (devStress (trialStress bulk shear dt D' sigma')) =
      misesOf (devStress (trialStress bulk shear dt D sigma)) := by
    rw [misesOf_dev, misesOf_dev, ht, Return.vonMises_conj hQ]
  unfold perfectPoint
  simp only [hv]
  split
  · exact ⟨_, _, rfl, rfl, plasticOut_conj hQ shear _ eqps (devStrain_conj hQ dt hD) ht hs⟩
  · exact ⟨_, _, rfl, rfl, ht, rfl, rfl⟩

/-- **C160** for the linearly hardening material. -/
theorem C160_hardening {bulk shear hard yield dt eqps : ℝ} (hsh : 0 < shear) (hh : 0 ≤ hard) {Q : Mat}
    (hQ : Qᵀ * Q = 1) {D D' sigma sigma' : M9} (hD : D'.toMatrix = Q * D.toMatrix * Qᵀ)
    (hs : sigma'.toMatrix = Q * sigma.toMatrix * Qᵀ) :
    ∃ o o', hardeningPoint bulk shear hard yield dt D sigma eqps = .ok o ∧
      hardeningPoint bulk shear hard yield dt D' sigma' eqps = .ok o' ∧
      o'.stress.toMatrix = Q * o.stress.toMatrix * Qᵀ ∧ o'.eqps = o.eqps ∧ o'.mises = o.mises := by
  have ht := trial_conj hQ bulk shear dt hD hs
  have hv : misesOf (devStress (trialStress bulk shear dt D' sigma')) =
      misesOf (devStress (trialStress bulk shear dt D sigma)) := by
    rw [misesOf_dev, misesOf_dev, ht, Return.vonMises_conj hQ]
  have hy : Correspondence.yieldValue shear hard yield eqps (devStrain dt D') (devStress (trialStress bulk shear dt D' sigma'))
      (devStress sigma') = Correspondence.yieldValue shear hard yield eqps (devStrain dt D)
      (devStress (trialStress bulk shear dt D sigma)) (devStress sigma) := by
    unfold Correspondence.yieldValue deltaLambda
    rw [contract_conj hQ (devStress_conj hQ ht) (devStrain_conj hQ dt hD), mags_conj hQ (devStress_conj hQ ht),
      contract_conj hQ (devStress_conj hQ hs) (devStress_conj hQ hs)]
  unfold hardeningPoint
  simp only [hv, hy]
  split
  · exact ⟨_, _, rfl, rfl, ht, rfl, rfl⟩
  · have hne : 2 * (hard + 3 * shear) ≠ 0 := by positivity
    simp only [if_neg hne]
    split
    · simp only [if_neg hsh.ne']
      exact ⟨_, _, rfl, rfl, plasticOut_conj hQ shear _ eqps (devStrain_conj hQ dt hD) ht hs⟩
    · exact ⟨_, _, rfl, rfl, ht, rfl, rfl⟩

example : (1 : ℝ) ≠ 0 ∧ (0 : ℝ) < 1 ∧ Return.quarterᵀ * Return.quarter = 1 := by
  refine ⟨one_ne_zero, one_pos, ?_⟩
  ext i j
  fin_cases i <;> fin_cases j <;> simp [Return.quarter, Matrix.mul_apply, Fin.sum_univ_three]

/-! ### C161: whole runs -/

/-- The yield stress at a point. -/
theorem reduced_ok {P : Const} (hP : P.Sound) (x : V3) :
    ∃ y, reducedYield P.yield P.flaw x = .ok y ∧ 0 < y ∧ y ≤ P.yield := by
  cases hf : P.flaw with
  | none => exact ⟨_, rfl, hP.yield, le_refl _⟩
  | some f =>
    obtain ⟨h1, h2, h3⟩ := hP.flaw f hf
    unfold reducedYield
    simp only
    rw [if_neg h1]
    refine ⟨_, rfl, ?_⟩
    have hq : ((-(x 0 - f.location 0)) * (x 0 - f.location 0) -
        (x 1 - f.location 1) * (x 1 - f.location 1) - (x 2 - f.location 2) * (x 2 - f.location 2)) /
        f.size / f.size ≤ 0 := by
      rw [div_div]
      refine div_nonpos_of_nonpos_of_nonneg ?_ (mul_self_nonneg _)
      nlinarith [mul_self_nonneg (x 0 - f.location 0), mul_self_nonneg (x 1 - f.location 1),
        mul_self_nonneg (x 2 - f.location 2)]
    have he := Real.exp_le_one_iff.mpr hq
    have he0 := Real.exp_pos (((-(x 0 - f.location 0)) * (x 0 - f.location 0) -
        (x 1 - f.location 1) * (x 1 - f.location 1) - (x 2 - f.location 2) * (x 2 - f.location 2)) /
        f.size / f.size)
    generalize Real.exp _ = E at he he0
    have hy := hP.yield
    constructor
    · refine mul_pos hy ?_
      nlinarith
    · nlinarith [mul_nonneg hy.le (mul_nonneg h2 he0.le)]

/-- What the loop leaves at the points it visits. -/
theorem loop_spec {P : Const} {x : Nat → V3} {dt : ℝ} {D : Nat → M9} {old : Fields} :
    ∀ {l : List Nat} {new f : Fields}, l.Nodup →
      l.foldlM (fun f p => do
        let o ← update P (x p) dt (D p) (old.stress p) (old.eqps p)
        .ok (f.put p o)) new = .ok f →
      (∀ p ∈ l, update P (x p) dt (D p) (old.stress p) (old.eqps p) = .ok ⟨f.stress p, f.mises p, f.eqps p⟩) ∧
      ∀ p, p ∉ l → f.stress p = new.stress p ∧ f.mises p = new.mises p ∧ f.eqps p = new.eqps p := by
  intro l
  induction l with
  | nil =>
    intro new f _ h
    cases h
    exact ⟨fun p hp => absurd hp (by simp), fun p _ => ⟨rfl, rfl, rfl⟩⟩
  | cons q l ih =>
    intro new f hn h
    obtain ⟨hq, hn⟩ := List.nodup_cons.mp hn
    obtain ⟨f1, h1, h2⟩ := BC.foldlM_cons_ok.mp h
    obtain ⟨o, ho, h1⟩ := Outcome.bind_eq_ok.mp h1
    cases h1
    obtain ⟨ih1, ih2⟩ := ih hn h2
    constructor
    · intro p hp
      rcases List.mem_cons.mp hp with rfl | hp
      · obtain ⟨e1, e2, e3⟩ := ih2 p hq
        rw [ho, e1, e2, e3]
        simp [Fields.put]
      · exact ih1 p hp
    · intro p hp
      rw [List.mem_cons, not_or] at hp
      obtain ⟨e1, e2, e3⟩ := ih2 p hp.2
      refine ⟨e1.trans ?_, e2.trans ?_, e3.trans ?_⟩ <;> simp [Fields.put, hp.1]

theorem loop_ok {P : Const} {x : Nat → V3} {dt : ℝ} {D : Nat → M9} {old : Fields} :
    ∀ {l : List Nat} {new : Fields},
      (∀ p ∈ l, ∃ o, update P (x p) dt (D p) (old.stress p) (old.eqps p) = .ok o) →
      ∃ f, l.foldlM (fun f p => do
        let o ← update P (x p) dt (D p) (old.stress p) (old.eqps p)
        .ok (f.put p o)) new = .ok f := by
  intro l
  induction l with
  | nil => exact fun _ => ⟨_, rfl⟩
  | cons q l ih =>
    intro new h
    obtain ⟨o, ho⟩ := h q (List.mem_cons_self ..)
    obtain ⟨f, hf⟩ := ih (new := new.put q o) (fun p hp => h p (List.mem_cons_of_mem _ hp))
    exact ⟨f, BC.foldlM_cons_ok.mpr ⟨_, by rw [ho]; rfl, hf⟩⟩

/-- A step at a point of the body. -/
theorem update_step {P : Const} (hP : P.Sound) (x : V3) {dt eqps : ℝ} (hdt : 0 < dt) (he : 0 ≤ eqps) (D sigma : M9) :
    ∃ o, update P x dt D sigma eqps = .ok o ∧ o.mises = vonMises o.stress.toMatrix ∧ eqps ≤ o.eqps ∧
      vonMises o.stress.toMatrix ≤ vonMises (elastic P dt D sigma) ∧
      mean o.stress.toMatrix = mean sigma.toMatrix + P.bulk * (dt • D.toMatrix).trace ∧
      (sigma.toMatrixᵀ = sigma.toMatrix → D.toMatrixᵀ = D.toMatrix → o.stress.toMatrixᵀ = o.stress.toMatrix) := by
  obtain ⟨y, hy, hy0, -⟩ := reduced_ok hP x
  obtain ⟨o, ho, h1, h2, -, h4, -, h6, h7⟩ := C156_step hP hy0 hdt he D sigma
  refine ⟨o, ?_, h1, h6, h4, h2, h7⟩
  unfold update
  rw [hy]
  exact ho

/-- **C161**, plastic strains of a run are never negative, and the von Mises stresses are those of the
stresses. -/
theorem C161_fields {P : Const} (hP : P.Sound) {x : Nat → V3} {n : Nat} {old new : Fields} (h : Run P x n old new)
    {p : Nat} (hp : p < n) : 0 ≤ old.eqps p ∧ old.mises p = vonMises (old.stress p).toMatrix := by
  have all : ∀ {old new : Fields}, Run P x n old new → ∀ p, p < n → 0 ≤ old.eqps p ∧
      old.mises p = vonMises (old.stress p).toMatrix := by
    intro old new h
    induction h with
    | start =>
      intro p _
      refine ⟨le_refl _, ?_⟩
      show (0 : ℝ) = vonMises (zero : M9).toMatrix
      unfold vonMises
      rw [toMatrix_zero, dev_zero, norm9_zero, mul_zero]
    | step hdt hrun hr ih =>
      rename_i old new r dt D
      intro p hp
      obtain ⟨h1, -⟩ := loop_spec List.nodup_range hr
      have h1 := h1 p (List.mem_range.mpr hp)
      obtain ⟨o, ho, hm, hq, -⟩ := update_step hP (x p) hdt (ih p hp).1 (D p) (old.stress p)
      rw [h1] at ho
      cases ho
      exact ⟨(ih p hp).1.trans hq, hm⟩
  exact all h p hp

/-- **C161.**  Whatever the deformations, a run can always go on; in each step the plastic strain does not
decrease, the mean stress changes elastically, the von Mises stress does not exceed the elastic one, symmetric
stresses stay symmetric, and other points are not touched. -/
theorem C161_continues {P : Const} (hP : P.Sound) {x : Nat → V3} {n : Nat} {old new : Fields} (h : Run P x n old new)
    {dt : ℝ} (hdt : 0 < dt) (D : Nat → M9) :
    ∃ r, computeCauchyStress P x dt D n old new = .ok r ∧ Run P x n r (r.swap old) ∧
      (∀ p, p < n → old.eqps p ≤ r.eqps p ∧
        mean (r.stress p).toMatrix = mean (old.stress p).toMatrix + P.bulk * (dt • (D p).toMatrix).trace ∧
        r.mises p ≤ vonMises (elastic P dt (D p) (old.stress p)) ∧
        ((old.stress p).toMatrixᵀ = (old.stress p).toMatrix → (D p).toMatrixᵀ = (D p).toMatrix →
          (r.stress p).toMatrixᵀ = (r.stress p).toMatrix)) ∧
      ∀ p, n ≤ p → r.stress p = new.stress p ∧ r.mises p = new.mises p ∧ r.eqps p = new.eqps p := by
  have hok : ∀ p ∈ List.range n, ∃ o, update P (x p) dt (D p) (old.stress p) (old.eqps p) = .ok o := by
    intro p hp
    obtain ⟨o, ho, -⟩ := update_step hP (x p) hdt (C161_fields hP h (List.mem_range.mp hp)).1 (D p) (old.stress p)
    exact ⟨o, ho⟩
  obtain ⟨r, hr⟩ := loop_ok (new := new) hok
  obtain ⟨h1, h2⟩ := loop_spec List.nodup_range hr
  refine ⟨r, hr, .step hdt h hr, ?_, ?_⟩
  · intro p hp
    have h1 := h1 p (List.mem_range.mpr hp)
    obtain ⟨o, ho, hm, hq, hv, hmean, hsym⟩ := update_step hP (x p) hdt (C161_fields hP h hp).1 (D p) (old.stress p)
    rw [h1] at ho
    cases ho
    exact ⟨hq, hmean, by rw [← hm] at hv; exact hv, hsym⟩
  · intro p hp
    exact h2 p (by rw [List.mem_range]; omega)

/-- A material with a flaw. -/
def flawed : Const := { viscous with flaw := some ⟨![0, 0, 0], 1, 1 / 2⟩ }

theorem flawed_sound : flawed.Sound :=
  { viscous_sound with
    flaw := by
      intro f h
      cases h
      norm_num }

/-- A run of two steps, the first one plastic. -/
example : ∃ old new, Run flawed (fun _ => 0) 2 old new ∧ (∃ old', Run flawed (fun _ => 0) 2 old' zeroFields ∧
    computeCauchyStress flawed (fun _ => 0) 1 (fun _ => shearBy (3 / 8)) 2 old' zeroFields = .ok old) ∧
    new.stress = zeroFields.stress := by
  obtain ⟨r, hr, hrun, -⟩ := C161_continues flawed_sound (Run.start (P := flawed) (x := fun _ => 0) (n := 2)) one_pos
    (fun _ => shearBy (3 / 8))
  exact ⟨r, r.swap zeroFields, hrun, ⟨zeroFields, .start, hr⟩, rfl⟩

/-- **C161**, the run sees the flaw: a point far below the yield stress of the material yields where the flaw
lowers it, and nowhere is the yield stress raised. -/
theorem C161_flaw {P : Const} (hP : P.Sound) (x : V3) (dt eqps : ℝ) (D sigma : M9) :
    (∃ y, 0 < y ∧ y ≤ P.yield ∧ (P.flaw = none → y = P.yield) ∧
      (∀ f, P.flaw = some f → x = f.location → y = P.yield * (1 - f.magnitude)) ∧
      update P x dt D sigma eqps = point P y dt D sigma eqps) := by
  obtain ⟨y, hy, h0, h1⟩ := reduced_ok hP x
  refine ⟨y, h0, h1, ?_, ?_, ?_⟩
  · intro hn
    rw [hn] at hy
    cases hy
    rfl
  · intro f hf hx
    obtain ⟨hsz, -⟩ := hP.flaw f hf
    rw [hf, hx] at hy
    unfold reducedYield at hy
    simp only at hy
    rw [if_neg hsz] at hy
    cases hy
    simp
  · unfold update
    rw [hy]
    rfl

example : flawed.Sound ∧ ∃ f, flawed.flaw = some f ∧ ![0, 0, 0] = f.location := ⟨flawed_sound, _, rfl, rfl⟩

/-- **C161**, parameters: if the flaw is switched off explicitly all its parameters must still be given,
otherwise the analysis stops; without the switch they are not needed. -/
theorem C161_switch (bulk shear : ℝ) (p : Input) (hflaw : p.real "Flaw Size" = none) :
    (∀ on, p.enableFlaw = some on → ∀ c, read bulk shear p ≠ .ok c) ∧
    ∀ y n m r e0 e1, p.enableFlaw = none → p.real "Thermal Expansion Coefficient" = none →
      p.real "Yield Stress" = some y → p.real "Strain Hardening Exponent" = some n →
      p.real "Rate Hardening Exponent" = some m → p.real "Reference Strain Rate" = some r →
      p.real "Reference Strain 0" = some e0 → p.real "Reference Strain 1" = some e1 →
      read bulk shear p = .ok ⟨bulk, shear, y, n, m, r, e0, e1, none⟩ := by
  constructor
  · intro on hon c h
    unfold read at h
    simp only at h
    split at h
    · cases h
    · obtain ⟨y, -, h⟩ := Outcome.bind_eq_ok.mp h
      obtain ⟨n, -, h⟩ := Outcome.bind_eq_ok.mp h
      obtain ⟨m, -, h⟩ := Outcome.bind_eq_ok.mp h
      obtain ⟨r, -, h⟩ := Outcome.bind_eq_ok.mp h
      obtain ⟨e0, -, h⟩ := Outcome.bind_eq_ok.mp h
      obtain ⟨e1, -, h⟩ := Outcome.bind_eq_ok.mp h
      rw [hon] at h
      simp only at h
      obtain ⟨fx, -, h⟩ := Outcome.bind_eq_ok.mp h
      obtain ⟨fy, -, h⟩ := Outcome.bind_eq_ok.mp h
      obtain ⟨fz, -, h⟩ := Outcome.bind_eq_ok.mp h
      obtain ⟨s, hs, h⟩ := Outcome.bind_eq_ok.mp h
      rw [hflaw] at hs
      cases hs
  · intro y n m r e0 e1 hon ht h1 h2 h3 h4 h5 h6
    unfold read
    simp only [ht, h1, h2, h3, h4, h5, h6, hon]
    rfl

example : ∃ p : Input, p.real "Flaw Size" = none ∧ p.enableFlaw = none ∧
    p.real "Thermal Expansion Coefficient" = none ∧ p.real "Yield Stress" = some 1 :=
  ⟨⟨fun k => if k = "Flaw Size" ∨ k = "Thermal Expansion Coefficient" then none else some 1, none⟩, by simp, rfl,
    by simp, by simp⟩

/-- **C161**, parameters are not checked: with a zero reference strain the material is accepted and the first
plastic step divides by zero. -/
theorem C161_unchecked {P : Const} (h0 : P.ref0 = 0) (hsh : P.shear ≠ 0) {yield dt eqps : ℝ} {D sigma : M9}
    (hE : yield ≤ vonMises (elastic P dt D sigma)) : point P yield dt D sigma eqps = .ub := by
  have hyf : ∀ a b, yieldFunction P dt yield a b = .ub := by
    intro a b
    unfold yieldFunction
    rw [if_pos (.inl h0)]
  unfold point
  simp only
  rw [misesOf_dev, trial_eq]
  change (if vonMises (elastic P dt D sigma) < yield then _ else _) = _
  rw [if_neg (not_lt.mpr hE), if_neg hsh]
  have hb : search P dt yield (devStrain dt D) (devStress (trialStress P.bulk P.shear dt D sigma))
      (devStress sigma) eqps = .ub := by
    unfold search maxPasses
    rw [bisect, halve, residual, hyf]
    rfl
  rw [hb]
  rfl

example : ∃ P : Const, read 1 1 ⟨fun k => if k = "Reference Strain 0" then some 0
    else if k = "Thermal Expansion Coefficient" then none else some 1, none⟩ = .ok P ∧ P.ref0 = 0 ∧ P.shear ≠ 0 ∧
    1 ≤ vonMises (elastic P 1 (shearBy (3 / 8)) zero) := by
  refine ⟨⟨1, 1, 1, 1, 1, 1, 0, 1, none⟩, ?_, rfl, one_ne_zero, ?_⟩
  · unfold read
    simp
  · rw [mises_shearBy, abs_of_pos (by norm_num)]
    have := sqrt_three.1
    norm_num
    linarith

end Verif.Needleman
