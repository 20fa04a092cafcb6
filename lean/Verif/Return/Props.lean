import Verif.Return.ReturnLemmas

/-!
# Nonlinear isotropic hardening (C143 to C145)
-/

noncomputable section

namespace Verif.Return

open Verif Verif.Neigh Verif.Mech Verif.Tensor Verif.Correspondence Matrix
open scoped Classical

/-! ### The cases used below -/

/-- A steel-like material with power-law hardening. -/
def steel : Const := ⟨160, 80, .powerLaw 1 (1 / 100) (1 / 2)⟩

/-- The same with a saturating rule. -/
def steelSat : Const := ⟨160, 80, .saturation 1 2 10 1⟩

/-- Linear hardening, as a power law with exponent one. -/
def straight : Const := ⟨160, 80, .powerLaw 1 (1 / 60) 1⟩

theorem steel_sound : steel.Sound where
  bulk := by norm_num [steel]
  shear := by norm_num [steel]
  rule := by
    show (0 : ℝ) < 1 ∧ (0 : ℝ) < 1 / 100 ∧ (0 : ℝ) ≤ 1 / 2 ∧ (1 / 2 : ℝ) ≤ 1
    norm_num
  floor := by norm_num [steel, Rule.yieldAt]

theorem steelSat_sound : steelSat.Sound where
  bulk := by norm_num [steelSat]
  shear := by norm_num [steelSat]
  rule := by
    show (0 : ℝ) < 1 ∧ (1 : ℝ) ≤ 2 ∧ (0 : ℝ) ≤ 10 ∧ (0 : ℝ) ≤ 1
    norm_num
  floor := by norm_num [steelSat, Rule.yieldAt]

theorem straight_sound : straight.Sound where
  bulk := by norm_num [straight]
  shear := by norm_num [straight]
  rule := by
    show (0 : ℝ) < 1 ∧ (0 : ℝ) < 1 / 60 ∧ (0 : ℝ) ≤ 1 ∧ (1 : ℝ) ≤ 1
    norm_num
  floor := by norm_num [straight, Rule.yieldAt]

/-- Shear. -/
def shearing : M9 := ⟨0, 1, 0, 1, 0, 0, 0, 0, 0⟩

theorem shearing_elastic (P : Const) (dt : ℝ) :
    vonMises (elastic P dt shearing zero) = 2 * Real.sqrt 3 * |P.shear * dt| := by
  have hE : elastic P dt shearing zero = (2 * P.shear * dt) • shearing.toMatrix := by
    have ht : (dt • shearing.toMatrix).trace = 0 := by
      simp [M9.toMatrix, shearing, Matrix.trace, Fin.sum_univ_three]
    unfold elastic hooke
    rw [ht, toMatrix_zero]
    module
  have hdev : dev shearing.toMatrix = shearing.toMatrix := by
    have ht : mean shearing.toMatrix = 0 := by
      simp [mean, M9.toMatrix, shearing, Matrix.trace, Fin.sum_univ_three]
    unfold dev
    rw [ht, zero_smul, sub_zero]
  have hip : ip shearing.toMatrix shearing.toMatrix = 2 := by
    rw [← contract_eq]
    norm_num [contract, shearing]
  unfold vonMises
  rw [hE, dev_smul, hdev, norm9_smul, norm9, hip, mul_comm, mul_assoc, ← Real.sqrt_mul (by norm_num), mul_assoc 2,
    abs_mul, abs_two]
  norm_num
  ring

theorem sqrt_three : 1 ≤ Real.sqrt 3 ∧ Real.sqrt 3 ≤ 2 :=
  ⟨Real.one_le_sqrt.mpr (by norm_num), (Real.sqrt_le_left (by norm_num)).mpr (by norm_num)⟩

theorem steel_slope : steel.rule.modulus 0 = 50 := by norm_num [steel, Rule.modulus]

theorem steelSat_slope : steelSat.rule.modulus 0 = 11 := by norm_num [steelSat, Rule.modulus]

theorem steel_vm : 1 ≤ vonMises (elastic steel (1 / 100) shearing zero) ∧
    vonMises (elastic steel (1 / 100) shearing zero) ≤ 4 := by
  rw [shearing_elastic, show |steel.shear * (1 / 100)| = 8 / 10 by norm_num [steel]]
  constructor <;> linarith [sqrt_three.1, sqrt_three.2]

theorem steelSat_vm : 1 ≤ vonMises (elastic steelSat (1 / 100) shearing zero) ∧
    vonMises (elastic steelSat (1 / 100) shearing zero) ≤ 4 := by
  rw [shearing_elastic, show |steelSat.shear * (1 / 100)| = 8 / 10 by norm_num [steelSat]]
  constructor <;> linarith [sqrt_three.1, sqrt_three.2]

/-- A plastic step from the unstressed state. -/
theorem steel_step : ∃ o, radialReturn steel (1 / 100) shearing zero 0 = .ok o := by
  refine return_ok_of_le steel_sound _ _ _ (le_refl 0) ?_ (steel_vm.2.trans ?_)
  · rw [steel_slope]
    norm_num [steel]
  · norm_num [steel]

theorem steelSat_step : ∃ o, radialReturn steelSat (1 / 100) shearing zero 0 = .ok o := by
  refine return_ok_of_le steelSat_sound _ _ _ (le_refl 0) ?_ (steelSat_vm.2.trans ?_)
  · rw [steelSat_slope]
    norm_num [steelSat]
  · norm_num [steelSat]

theorem steel_initial : steel.rule.yieldAt 0 = 1 := by norm_num [steel, Rule.yieldAt]

theorem steelSat_initial : steelSat.rule.yieldAt 0 = 1 := by norm_num [steelSat, Rule.yieldAt]

/-! ### C143: the yield surface -/

/-- **C143.**  After a step of the return the recorded von Mises stress is that of the stress, the stress
is within the yield surface of the new equivalent plastic strain up to the tolerance, and on or outside it
if the step was plastic. -/
theorem C143_surface {P : Const} (hP : P.Sound) {dt : ℝ} {D sigma : M9} {eqps : ℝ} (he : 0 ≤ eqps) {o : PlasticOut}
    (h : radialReturn P dt D sigma eqps = .ok o) :
    o.mises = vonMises o.stress.toMatrix ∧
    vonMises o.stress.toMatrix ≤ P.rule.yieldAt o.eqps + 1 / 10 ^ 16 * P.bulk ∧
    (P.rule.yieldAt eqps ≤ vonMises (elastic P dt D sigma) → P.rule.yieldAt o.eqps ≤ vonMises o.stress.toMatrix) := by
  rcases return_cases hP dt D sigma he with h' | ⟨o', h', hc⟩
  · rw [h'] at h
    cases h
  · rw [h'] at h
    cases h
    rcases hc with ⟨hlt, rfl⟩ | ⟨pl, hp⟩
    · have e : vonMises (elastic P dt D sigma) = vonMises (trialStress P.bulk P.shear dt D sigma).toMatrix := by
        rw [trial_eq]
        rfl
      refine ⟨e, ?_, fun hge => absurd hlt (not_lt.mpr hge)⟩
      show vonMises (trialStress P.bulk P.shear dt D sigma).toMatrix ≤ P.rule.yieldAt eqps + _
      rw [← e]
      have := hP.bulk
      have : 0 ≤ 1 / 10 ^ 16 * P.bulk := by positivity
      linarith
    · have hy : 0 ≤ P.rule.yieldAt o.eqps := by
        have := yield_mono hP.rule (le_refl 0) (b := o.eqps) (by rw [hp.eqps]; linarith [hp.nonneg])
        refine le_trans ?_ (hP.floor.trans this)
        positivity
      have hv := hp.vonMises hy
      exact ⟨hv, hv ▸ hp.above, fun _ => hv ▸ hp.below⟩

example : steel.Sound ∧ steelSat.Sound ∧ (∃ o, radialReturn steel (1 / 100) shearing zero 0 = .ok o) ∧
    (∃ o, radialReturn steelSat (1 / 100) shearing zero 0 = .ok o) ∧
    steel.rule.yieldAt 0 ≤ vonMises (elastic steel (1 / 100) shearing zero) :=
  ⟨steel_sound, steelSat_sound, steel_step, steelSat_step, steel_initial.le.trans steel_vm.1⟩

/-- **C143.**  The slope used by the iteration is the derivative of the yield stress. -/
theorem C143_slope {R : Rule} (hR : R.Sound) {e : ℝ} (he : 0 ≤ e) :
    ∃ y, hardened R e = .ok y ∧ y = R.yieldAt e ∧ ∃ m, hardMod R e = .ok m ∧ HasDerivAt R.yieldAt m e :=
  ⟨_, hardened_eq hR he, rfl, _, hardMod_eq hR he, hasDeriv R hR he⟩

example : Rule.Sound (.powerLaw 1 (1 / 100) (1 / 2)) ∧ Rule.Sound (.saturation 1 2 10 1) :=
  ⟨steel_sound.rule, steelSat_sound.rule⟩

/-- **C143.**  A step whose elastic stress stays below the yield stress is elastic. -/
theorem C143_elastic {P : Const} (hP : P.Sound) {dt : ℝ} {D sigma : M9} {eqps : ℝ} (he : 0 ≤ eqps)
    (hy : vonMises (elastic P dt D sigma) < P.rule.yieldAt eqps) :
    ∃ o, radialReturn P dt D sigma eqps = .ok o ∧ o.stress.toMatrix = elastic P dt D sigma ∧ o.eqps = eqps := by
  rw [return_eq hP dt D sigma he, if_pos hy]
  exact ⟨_, rfl, trial_eq _ _ _ _ _, rfl⟩

example : steel.Sound ∧ vonMises (elastic steel (1 / 1000) shearing zero) < steel.rule.yieldAt 0 := by
  refine ⟨steel_sound, ?_⟩
  rw [shearing_elastic]
  have h3 : Real.sqrt 3 ≤ 2 := by
    rw [Real.sqrt_le_left (by norm_num)]
    norm_num
  rw [show |steel.shear * (1 / 1000)| = 8 / 100 by norm_num [steel],
    show steel.rule.yieldAt 0 = 1 by norm_num [steel, Rule.yieldAt]]
  linarith

/-- **C143.**  The equivalent plastic strain of a plastic step is that of the exact return, from below and
within the tolerance divided by three times the shear modulus. -/
theorem C143_exact {P : Const} (hP : P.Sound) {dt : ℝ} {D sigma : M9} {eqps : ℝ} (he : 0 ≤ eqps) {o : PlasticOut}
    (h : radialReturn P dt D sigma eqps = .ok o) {x : ℝ} (hx : 0 ≤ x)
    (hexact : vonMises (elastic P dt D sigma) - 3 * P.shear * x = P.rule.yieldAt (eqps + x)) :
    o.eqps ≤ eqps + x ∧ eqps + x ≤ o.eqps + 1 / 10 ^ 16 * P.bulk / (3 * P.shear) := by
  have hs := hP.shear
  have hb := hP.bulk
  rcases return_cases hP dt D sigma he with h' | ⟨o', h', hc⟩
  · rw [h'] at h
    cases h
  · rw [h'] at h
    cases h
    rcases hc with ⟨hlt, rfl⟩ | ⟨pl, hp⟩
    · have h0 := yield_mono hP.rule he (b := eqps + x) (by linarith)
      have : 0 ≤ P.shear * x := by positivity
      linarith
    · have e1 := hp.eqps
      have b1 := hp.below
      have b2 := hp.above
      rw [hp.mises] at b1 b2
      have hpl := hp.nonneg
      rw [e1] at b1 b2 ⊢
      constructor
      · by_contra hlt
        push Not at hlt
        have := yield_mono hP.rule (a := eqps + x) (b := eqps + pl) (by linarith) hlt.le
        have : P.shear * x < P.shear * pl := mul_lt_mul_of_pos_left (by linarith) hs
        linarith
      · rcases le_total x pl with hle | hle
        · have : 0 ≤ 1 / 10 ^ 16 * P.bulk / (3 * P.shear) := by positivity
          linarith
        · have := yield_mono hP.rule (a := eqps + pl) (b := eqps + x) (by linarith) (by linarith)
          have h2 : (x - pl) * (3 * P.shear) ≤ 1 / 10 ^ 16 * P.bulk := by linarith
          have := (le_div_iff₀ (by positivity)).mpr h2
          linarith

/-- **C143.**  The exact return exists and is unique. -/
theorem C143_unique {P : Const} (hP : P.Sound) {v eqps : ℝ} (he : 0 ≤ eqps) (hv : P.rule.yieldAt eqps ≤ v) :
    ∃! x : ℝ, 0 ≤ x ∧ v - 3 * P.shear * x = P.rule.yieldAt (eqps + x) := by
  have hs := hP.shear
  have hcont : ContinuousOn (fun x : ℝ => P.rule.yieldAt (eqps + x) + 3 * P.shear * x)
      (Set.Icc 0 ((v - P.rule.yieldAt eqps) / (3 * P.shear))) := by
    intro x hx
    have h1 : ContinuousAt P.rule.yieldAt (eqps + x) := (hasDeriv P.rule hP.rule (add_nonneg he hx.1)).continuousAt
    have h2 : ContinuousAt (fun x : ℝ => P.rule.yieldAt (eqps + x)) x :=
      ContinuousAt.comp (f := fun x : ℝ => eqps + x) h1 (by fun_prop)
    exact (h2.add (by fun_prop)).continuousWithinAt
  have hb : 0 ≤ (v - P.rule.yieldAt eqps) / (3 * P.shear) := div_nonneg (by linarith) (by positivity)
  have hi := intermediate_value_Icc hb hcont
  have hmem : v ∈ Set.Icc (P.rule.yieldAt (eqps + 0) + 3 * P.shear * 0)
      (P.rule.yieldAt (eqps + (v - P.rule.yieldAt eqps) / (3 * P.shear)) +
        3 * P.shear * ((v - P.rule.yieldAt eqps) / (3 * P.shear))) := by
    constructor
    · simpa using hv
    · have := yield_mono hP.rule he (b := eqps + (v - P.rule.yieldAt eqps) / (3 * P.shear)) (by linarith)
      have e : 3 * P.shear * ((v - P.rule.yieldAt eqps) / (3 * P.shear)) = v - P.rule.yieldAt eqps := by field_simp
      rw [e]
      linarith
  obtain ⟨x, hx, hxv⟩ := hi hmem
  have hxv' : P.rule.yieldAt (eqps + x) + 3 * P.shear * x = v := hxv
  refine ⟨x, ⟨hx.1, by linarith⟩, ?_⟩
  rintro z ⟨hz, hzv⟩
  rcases lt_trichotomy z x with hlt | heq | hlt
  · have := yield_mono hP.rule (a := eqps + z) (b := eqps + x) (by linarith) (by linarith)
    have : P.shear * z < P.shear * x := mul_lt_mul_of_pos_left hlt hs
    linarith
  · exact heq
  · have := yield_mono hP.rule (a := eqps + x) (b := eqps + z) (by linarith [hx.1]) (by linarith)
    have : P.shear * x < P.shear * z := mul_lt_mul_of_pos_left hlt hs
    linarith

example : steel.rule.yieldAt 0 ≤ vonMises (elastic steel (1 / 100) shearing zero) := steel_initial.le.trans steel_vm.1

example : ∃ (o : PlasticOut) (x : ℝ), radialReturn steel (1 / 100) shearing zero 0 = .ok o ∧ 0 ≤ x ∧
    vonMises (elastic steel (1 / 100) shearing zero) - 3 * steel.shear * x = steel.rule.yieldAt (0 + x) := by
  obtain ⟨o, ho⟩ := steel_step
  obtain ⟨x, ⟨hx, hv⟩, -⟩ := C143_unique steel_sound (le_refl 0) (steel_initial.le.trans steel_vm.1)
  exact ⟨o, x, ho, hx, hv⟩

/-! ### C144: the flow -/

/-- **C144.**  The return changes neither the mean stress nor the direction of the deviatoric stress; the
equivalent plastic strain never decreases and grows by exactly the equivalent of the plastic strain that
the stresses imply, which points along the stress; so plastic flow takes energy. -/
theorem C144_flow {P : Const} (hP : P.Sound) {dt : ℝ} {D sigma : M9} {eqps : ℝ} (he : 0 ≤ eqps) {o : PlasticOut}
    (h : radialReturn P dt D sigma eqps = .ok o) :
    mean o.stress.toMatrix = mean sigma.toMatrix + P.bulk * (dt • D.toMatrix).trace ∧
    (∃ c : ℝ, 0 ≤ c ∧ c ≤ 1 ∧ dev o.stress.toMatrix = c • dev (elastic P dt D sigma)) ∧
    eqps ≤ o.eqps ∧
    o.eqps - eqps =
      Real.sqrt (2 / 3) * norm9 (plasticStrain P.shear (dt • D.toMatrix) sigma.toMatrix o.stress.toMatrix) ∧
    ip o.stress.toMatrix (plasticStrain P.shear (dt • D.toMatrix) sigma.toMatrix o.stress.toMatrix) =
      vonMises o.stress.toMatrix * (o.eqps - eqps) := by
  have hs := hP.shear
  have hm : mean (elastic P dt D sigma) = mean sigma.toMatrix + P.bulk * (dt • D.toMatrix).trace := by
    unfold elastic
    rw [mean_add, hooke_eq, mean_add, mean_smul, mean_smul, mean_one, mean_dev]
    ring
  have hdevE : dev (elastic P dt D sigma) = dev sigma.toMatrix + (2 * P.shear) • dev (dt • D.toMatrix) := by
    unfold elastic
    rw [dev_add, dev_hooke]
  have hps : ∀ s' : Mat, plasticStrain P.shear (dt • D.toMatrix) sigma.toMatrix s' =
      (1 / (2 * P.shear)) • (dev (elastic P dt D sigma) - dev s') := by
    intro s'
    unfold plasticStrain
    rw [hdevE, smul_sub, smul_sub, smul_add, smul_smul, one_div_mul_cancel (by positivity), one_smul]
    abel
  rcases return_cases hP dt D sigma he with h' | ⟨o', h', hc⟩
  · rw [h'] at h
    cases h
  · rw [h'] at h
    cases h
    rcases hc with ⟨hlt, rfl⟩ | ⟨pl, hp⟩
    · have e : (trialStress P.bulk P.shear dt D sigma).toMatrix = elastic P dt D sigma := trial_eq _ _ _ _ _
      refine ⟨e ▸ hm, ⟨1, zero_le_one, le_refl _, ?_⟩, le_refl _, ?_, ?_⟩
      · show dev (trialStress P.bulk P.shear dt D sigma).toMatrix = _
        rw [e, one_smul]
      · show eqps - eqps = _
        rw [hps, e, sub_self, sub_self, smul_zero, norm9_zero, mul_zero]
      · show _ = _ * (eqps - eqps)
        rw [hps, e, sub_self, sub_self, smul_zero]
        simp [ip]
    · have hn := hp.norm_pos
      have hy : 0 ≤ P.rule.yieldAt o.eqps := by
        have := yield_mono hP.rule (le_refl 0) (b := o.eqps) (by rw [hp.eqps]; linarith [hp.nonneg])
        refine le_trans ?_ (hP.floor.trans this)
        positivity
      have hpl := hp.nonneg
      have hq : Real.sqrt 6 = 2 * Real.sqrt (3 / 2) := by
        rw [show (6 : ℝ) = 2 ^ 2 * (3 / 2) by norm_num, Real.sqrt_mul (by norm_num), Real.sqrt_sq (by norm_num)]
      have hstrain : plasticStrain P.shear (dt • D.toMatrix) sigma.toMatrix o.stress.toMatrix =
          (Real.sqrt (3 / 2) * pl / norm9 (dev (elastic P dt D sigma))) • dev (elastic P dt D sigma) := by
        rw [hps, hp.dev, sub_smul, one_smul, sub_sub_cancel, smul_smul, hq]
        congr 1
        field_simp
      refine ⟨hp.mean.trans hm, ⟨_, hp.ratio hy, ?_, hp.dev⟩, ?_, ?_, ?_⟩
      · have : 0 ≤ Real.sqrt 6 * P.shear * pl / norm9 (dev (elastic P dt D sigma)) := by positivity
        linarith
      · rw [hp.eqps]
        linarith
      · rw [hstrain, norm9_smul, abs_of_nonneg (by positivity), hp.eqps]
        have := sqrt_prod
        generalize Real.sqrt (3 / 2) = a at this
        generalize Real.sqrt (2 / 3) = b at this
        generalize norm9 (dev (elastic P dt D sigma)) = m at hn
        have e : a * pl / m * m = a * pl := by field_simp
        rw [e]
        linear_combination -pl * this
      · rw [hstrain, ip_smul_right, ip_dev, hp.dev, ip_smul_left, ← norm9_sq, ← hp.vonMises hy, hp.mises, hp.eqps,
          vonMises, hq]
        have : Real.sqrt (3 / 2) ^ 2 = 3 / 2 := Real.sq_sqrt (by norm_num)
        generalize Real.sqrt (3 / 2) = a at this
        generalize norm9 (dev (elastic P dt D sigma)) = m at hn
        have e : a * pl / m * ((1 - 2 * a * P.shear * pl / m) * m ^ 2) = a * pl * (m - 2 * a * P.shear * pl) := by
          field_simp
        rw [e]
        linear_combination (-2 * P.shear * pl ^ 2) * this

example : steel.Sound ∧ ∃ o, radialReturn steel (1 / 100) shearing zero 0 = .ok o := ⟨steel_sound, steel_step⟩

/-- **C144.**  A symmetric stress and a symmetric rate of deformation give a symmetric stress. -/
theorem C144_symmetric {P : Const} (hP : P.Sound) {dt : ℝ} {D sigma : M9} {eqps : ℝ} (he : 0 ≤ eqps) {o : PlasticOut}
    (h : radialReturn P dt D sigma eqps = .ok o) (hD : D.toMatrixᵀ = D.toMatrix)
    (hsig : sigma.toMatrixᵀ = sigma.toMatrix) : o.stress.toMatrixᵀ = o.stress.toMatrix := by
  have hE : (elastic P dt D sigma)ᵀ = elastic P dt D sigma := by
    unfold elastic hooke
    simp only [transpose_add, transpose_smul, transpose_one, hD, hsig]
  rcases return_cases hP dt D sigma he with h' | ⟨o', h', hc⟩
  · rw [h'] at h
    cases h
  · rw [h'] at h
    cases h
    rcases hc with ⟨hlt, rfl⟩ | ⟨pl, hp⟩
    · show (trialStress P.bulk P.shear dt D sigma).toMatrixᵀ = (trialStress P.bulk P.shear dt D sigma).toMatrix
      rw [trial_eq]
      exact hE
    · rw [hp.stress, transpose_sub, transpose_smul, transpose_dev _ hE, hE]

example : shearing.toMatrixᵀ = shearing.toMatrix ∧ (zero : M9).toMatrixᵀ = (zero : M9).toMatrix ∧
    ∃ o, radialReturn steelSat (1 / 100) shearing zero 0 = .ok o := by
  refine ⟨?_, by rw [toMatrix_zero, transpose_zero], steelSat_step⟩
  ext i j
  fin_cases i <;> fin_cases j <;> rfl

/-! ### C145: the iteration ends -/

/-- **C145.**  With sensible constants nothing undefined happens: the return gives a result or stops the
program. -/
theorem C145_defined {P : Const} (hP : P.Sound) (dt : ℝ) (D sigma : M9) {eqps : ℝ} (he : 0 ≤ eqps) :
    radialReturn P dt D sigma eqps = .fail .terminate ∨ ∃ o, radialReturn P dt D sigma eqps = .ok o := by
  rcases return_cases hP dt D sigma he with h | ⟨o, h, -⟩
  · exact .inl h
  · exact .inr ⟨o, h⟩

example : steel.Sound ∧ steelSat.Sound := ⟨steel_sound, steelSat_sound⟩

/-- **C145.**  The iteration reaches the tolerance within the allowed passes if the slope of the yield
stress is at most three times the shear modulus and the elastic stress below 10^14 times the bulk
modulus. -/
theorem C145_ends {P : Const} (hP : P.Sound) (dt : ℝ) (D sigma : M9) {eqps : ℝ} (he : 0 ≤ eqps)
    (hm : P.rule.slopeAt eqps ≤ 3 * P.shear) (hv : vonMises (elastic P dt D sigma) ≤ 10 ^ 14 * P.bulk) :
    ∃ o, radialReturn P dt D sigma eqps = .ok o :=
  return_ok_of_le hP dt D sigma he (by rwa [← slope_eq hP.rule he]) hv

example : steelSat.Sound ∧ steelSat.rule.slopeAt 0 ≤ 3 * steelSat.shear ∧
    vonMises (elastic steelSat (1 / 100) shearing zero) ≤ 10 ^ 14 * steelSat.bulk ∧
    steelSat.rule.yieldAt 0 ≤ vonMises (elastic steelSat (1 / 100) shearing zero) := by
  refine ⟨steelSat_sound, ?_, steelSat_vm.2.trans ?_, steelSat_initial.le.trans steelSat_vm.1⟩
  · rw [slope_eq steelSat_sound.rule (le_refl 0), steelSat_slope]
    norm_num [steelSat]
  · norm_num [steelSat]

/-- **C145.**  In general the residual shrinks at least by the factor slope / (3 shear + slope) in each of
the hundred passes. -/
theorem C145_rate {P : Const} (hP : P.Sound) (dt : ℝ) (D sigma : M9) {eqps : ℝ} (he : 0 ≤ eqps)
    (h : (vonMises (elastic P dt D sigma) - P.rule.yieldAt eqps) *
      (P.rule.slopeAt eqps / (3 * P.shear + P.rule.slopeAt eqps)) ^ 100 ≤ 1 / 10 ^ 16 * P.bulk) :
    ∃ o, radialReturn P dt D sigma eqps = .ok o :=
  return_ok hP dt D sigma he (by rwa [slope_eq hP.rule he] at h)

example : (vonMises (elastic steel (1 / 100) shearing zero) - steel.rule.yieldAt 0) *
    (steel.rule.slopeAt 0 / (3 * steel.shear + steel.rule.slopeAt 0)) ^ 100 ≤ 1 / 10 ^ 16 * steel.bulk := by
  rw [slope_eq steel_sound.rule (le_refl 0), steel_slope, steel_initial]
  have h := steel_vm.2
  have : vonMises (elastic steel (1 / 100) shearing zero) - 1 ≤ 3 := by linarith
  refine (mul_le_mul_of_nonneg_right this (by norm_num [steel])).trans ?_
  norm_num [steel]

/-- **C145.**  The parameters are not checked: a characteristic strain of zero is accepted by the
constructor, and then every step divides by zero. -/
theorem C145_unchecked (h : HardeningParams) {y n : ℝ} (hr : h.rule = "Power-law")
    (hy : h.params "Yield Stress" = some y) (hc : h.params "Hardening Characteristic Strain" = some 0)
    (hn : h.params "Hardening Exponent" = some n) :
    ∃ R, readRule h = .ok R ∧ ∀ bulk shear dt D sigma eqps,
      radialReturn ⟨bulk, shear, R⟩ dt D sigma eqps = .ub := by
  refine ⟨.powerLaw y 0 n, ?_, fun bulk shear dt D sigma eqps => ?_⟩
  · unfold readRule
    simp [hr, hy, hc, hn]
  · unfold radialReturn
    simp [hardened]

example : ∃ h : HardeningParams, h.rule = "Power-law" ∧ h.params "Yield Stress" = some 1 ∧
    h.params "Hardening Characteristic Strain" = some 0 ∧ h.params "Hardening Exponent" = some 1 :=
  ⟨⟨"Power-law", fun k => if k = "Hardening Characteristic Strain" then some 0 else some 1⟩, rfl, by simp, by simp,
    by simp⟩

/-- **C145.**  What the constructor reads: one of two rules with all of its parameters; everything else
throws. -/
theorem C145_rules (h : HardeningParams) :
    readRule h = .fail .runtimeError ∨
    (h.rule = "Power-law" ∧ ∃ y c n, h.params "Yield Stress" = some y ∧
      h.params "Hardening Characteristic Strain" = some c ∧ h.params "Hardening Exponent" = some n ∧
      readRule h = .ok (.powerLaw y c n)) ∨
    (h.rule = "Saturation type exponential" ∧ ∃ y0 ys k lin, h.params "Initial Yield Stress" = some y0 ∧
      h.params "Saturated Yield Stress" = some ys ∧ h.params "Exponential Constant" = some k ∧
      h.params "Linear Constant" = some lin ∧ readRule h = .ok (.saturation y0 ys k lin)) := by
  unfold readRule
  by_cases h1 : h.rule = "Power-law"
  · rw [if_pos h1]
    cases e1 : h.params "Yield Stress" with
    | none => exact .inl (by simp [e1])
    | some y =>
      cases e2 : h.params "Hardening Characteristic Strain" with
      | none => exact .inl (by simp [e1, e2])
      | some c =>
        cases e3 : h.params "Hardening Exponent" with
        | none => exact .inl (by simp [e1, e2, e3])
        | some n => exact .inr (.inl ⟨h1, y, c, n, rfl, rfl, rfl, by simp [e1, e2, e3]⟩)
  · rw [if_neg h1]
    by_cases h2 : h.rule = "Saturation type exponential"
    · rw [if_pos h2]
      cases e1 : h.params "Initial Yield Stress" with
      | none => exact .inl (by simp [e1])
      | some y0 =>
        cases e2 : h.params "Saturated Yield Stress" with
        | none => exact .inl (by simp [e1, e2])
        | some ys =>
          cases e3 : h.params "Exponential Constant" with
          | none => exact .inl (by simp [e1, e2, e3])
          | some k =>
            cases e4 : h.params "Linear Constant" with
            | none => exact .inl (by simp [e1, e2, e3, e4])
            | some lin => exact .inr (.inr ⟨h2, y0, ys, k, lin, rfl, rfl, rfl, rfl, by simp [e1, e2, e3, e4]⟩)
    · rw [if_neg h2]
      exact .inl rfl

example : ∃ h : HardeningParams, readRule h = .ok (.saturation 1 1 1 1) :=
  ⟨⟨"Saturation type exponential", fun _ => some 1⟩, by simp [readRule]⟩

/-- **C145.**  The slope is largest at the start of the loading, so the condition needs to be checked
there only. -/
theorem C145_slope {R : Rule} (hR : R.Sound) {a b : ℝ} (ha : 0 ≤ a) (hab : a ≤ b) : R.slopeAt b ≤ R.slopeAt a := by
  rw [slope_eq hR ha, slope_eq hR (ha.trans hab)]
  exact modulus_anti hR ha hab

example : Rule.Sound (.saturation 1 2 10 1) ∧ (0 : ℝ) ≤ 1 / 2 ∧ (1 / 2 : ℝ) ≤ 1 := ⟨steelSat_sound.rule, by norm_num⟩

end Verif.Return
