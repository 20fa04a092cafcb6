import Verif.Return.RunLemmas
import Verif.Return.Props

/-!
# Nonlinear isotropic hardening: rotated steps, whole runs and the triaxiality (C146 to C148)
-/

noncomputable section

namespace Verif.Return

open Verif Verif.Neigh Verif.Mech Verif.Tensor Verif.Correspondence Matrix
open scoped Classical

/-! ### C146: isotropy -/

/-- **C146.**  A step with rotated (or reflected) rate of deformation and stress gives the rotated stress,
the same plastic strain and the same von Mises stress; if the one succeeds the other does. -/
theorem C146_isotropic {P : Const} (hP : P.Sound) {Q : Mat} (hQ : Qᵀ * Q = 1) {dt : ℝ} {D D' sigma sigma' : M9}
    (hD : D'.toMatrix = Q * D.toMatrix * Qᵀ) (hs : sigma'.toMatrix = Q * sigma.toMatrix * Qᵀ) {eqps : ℝ}
    (he : 0 ≤ eqps) {o : PlasticOut} (h : radialReturn P dt D sigma eqps = .ok o) :
    ∃ o', radialReturn P dt D' sigma' eqps = .ok o' ∧ o'.stress.toMatrix = Q * o.stress.toMatrix * Qᵀ ∧
      o'.eqps = o.eqps ∧ o'.mises = o.mises := by
  have hE := elastic_conj hQ P dt hD hs
  have hv : vonMises (elastic P dt D' sigma') = vonMises (elastic P dt D sigma) := by rw [hE, vonMises_conj hQ]
  rcases return_cases hP dt D sigma he with h' | ⟨o1, h', hc⟩
  · rw [h'] at h
    cases h
  · rw [h'] at h
    cases h
    rcases hc with ⟨hlt, rfl⟩ | ⟨pl, hp⟩
    · refine ⟨⟨trialStress P.bulk P.shear dt D' sigma', vonMises (elastic P dt D sigma), eqps⟩, ?_, ?_, rfl, rfl⟩
      · rw [return_eq hP dt D' sigma' he, hv, if_pos hlt]
      · show (trialStress P.bulk P.shear dt D' sigma').toMatrix = _
        rw [trial_eq]
        show elastic P dt D' sigma' = Q * (trialStress P.bulk P.shear dt D sigma).toMatrix * Qᵀ
        rw [trial_eq]
        exact hE
    · have hge := hp.reached
      have h1 := h'
      rw [return_eq hP dt D sigma he, if_neg (not_lt.mpr hge)] at h1
      obtain ⟨r, hr, h1⟩ := Outcome.bind_eq_ok.mp h1
      cases h1
      obtain ⟨r', hr', e1, e2⟩ := iterate_scalars maxIterations (s := ⟨0, eqps, trialStress P.bulk P.shear dt D sigma,
          vonMises (elastic P dt D sigma) - P.rule.yieldAt eqps⟩)
        (s' := ⟨0, eqps, trialStress P.bulk P.shear dt D' sigma', vonMises (elastic P dt D sigma) - P.rule.yieldAt eqps⟩)
        (flow' := scaled (devStress (trialStress P.bulk P.shear dt D' sigma'))
            (1 / magnitude (devStress (trialStress P.bulk P.shear dt D' sigma')))) rfl rfl rfl hr
      have hok : radialReturn P dt D' sigma' eqps =
          .ok ⟨r'.stress, vonMises (elastic P dt D sigma) - 3 * P.shear * r'.plastic, r'.eqps⟩ := by
        rw [return_eq hP dt D' sigma' he, hv, if_neg (not_lt.mpr hge), hr']
        rfl
      refine ⟨_, hok, ?_, e2, ?_⟩
      · rcases return_cases hP dt D' sigma' he with h'' | ⟨o2, h'', hc⟩
        · rw [hok] at h''
          cases h''
        · rw [hok] at h''
          cases h''
          rcases hc with ⟨hlt, -⟩ | ⟨pl', hp'⟩
          · rw [hv] at hlt
            exact absurd hlt (not_lt.mpr hge)
          · have epl : pl' = pl := by
              have a := hp.eqps
              have b := hp'.eqps
              simp only at a b
              linarith
            rw [hp'.stress, hp.stress, hE, dev_conj hQ, norm_conj hQ, epl, Matrix.mul_sub, Matrix.sub_mul,
              Matrix.mul_smul, Matrix.smul_mul]
      · show _ - _ * r'.plastic = _ - _ * r.plastic
        rw [e1]

/-- A quarter turn. -/
def quarter : Mat := !![0, -1, 0; 1, 0, 0; 0, 0, 1]

example : quarterᵀ * quarter = 1 ∧
    (⟨0, -1, 0, -1, 0, 0, 0, 0, 0⟩ : M9).toMatrix = quarter * shearing.toMatrix * quarterᵀ ∧
    (zero : M9).toMatrix = quarter * (zero : M9).toMatrix * quarterᵀ ∧
    ∃ o, radialReturn steel (1 / 100) shearing zero 0 = .ok o := by
  refine ⟨?_, ?_, by simp [toMatrix_zero], steel_step⟩
  · ext i j
    fin_cases i <;> fin_cases j <;> simp [quarter, Matrix.mul_apply, Fin.sum_univ_three]
  · ext i j
    fin_cases i <;> fin_cases j <;>
      simp [quarter, shearing, M9.toMatrix, Matrix.mul_apply, Fin.sum_univ_three]

/-! ### C147: whole runs -/

/-- Points and bonds in one list. -/
def MatState.level (s : MatState) : Bool → Fields
  | true => s.bonds
  | false => s.nodes

/-- Number of bonds, number of points. -/
def levelSize (nbs : List (List Nat)) : Bool → Nat
  | true => bondCount nbs
  | false => nbs.length

theorem level_update {P : Const} {dt : ℝ} {nodeRate bondRate : Nat → M9} {nbs : List (List Nat)}
    {old new r : MatState}
    (h : computeCauchyStress P dt nodeRate bondRate nbs.length (encode nbs) old new = .ok r) (b : Bool) {k : Nat}
    (hk : k < levelSize nbs b) :
    ∃ o, Visited (b && P.rule.isSaturation) P dt (if b then bondRate else nodeRate) (old.level b) (new.level b)
      (r.level b) k o := by
  obtain ⟨h1, h2⟩ := compute_parts h
  cases b with
  | false => exact (updateAll_spec List.nodup_range h1).1 k (List.mem_range.mpr hk)
  | true =>
    refine (updateAll_spec (bondsOf_nodup nbs) h2).1 k ?_
    rw [bondsOf, bondsFrom_pos]
    simpa [levelSize, bondCount] using hk

/-- **C147.**  Through every run, at every point and every bond, the equivalent plastic strain is not
negative and the stress is within the yield surface that belongs to it, up to the tolerance; the recorded
von Mises stress is that of the stress. -/
theorem C147_admissible {P : Const} (hP : P.Sound) {nbs : List (List Nat)} {old new : MatState}
    (h : Run P nbs old new) (b : Bool) {k : Nat} (hk : k < levelSize nbs b) :
    0 ≤ (old.level b).eqps k ∧
    (old.level b).mises k = vonMises ((old.level b).stress k).toMatrix ∧
    vonMises ((old.level b).stress k).toMatrix ≤
      P.rule.yieldAt ((old.level b).eqps k) + 1 / 10 ^ 16 * P.bulk := by
  have hb := hP.bulk
  induction h with
  | start =>
    have e : ∀ b, (MatState.level ⟨zeroFields, zeroFields⟩ b) = zeroFields := by intro b; cases b <;> rfl
    have hz : vonMises ((zero : M9).toMatrix) = 0 := by
      unfold vonMises
      rw [toMatrix_zero, dev_zero, norm9_zero, mul_zero]
    rw [e]
    refine ⟨le_refl _, hz.symm, ?_⟩
    show vonMises (zero : M9).toMatrix ≤ P.rule.yieldAt 0 + _
    rw [hz]
    have := hP.floor
    have : (0 : ℝ) ≤ 2 / 10 ^ 20 := by positivity
    have : 0 ≤ 1 / 10 ^ 16 * P.bulk := by positivity
    linarith
  | step hrun hr ih =>
    obtain ⟨o, ho⟩ := level_update hr b hk
    rw [ho.eqps, ho.mises, ho.stress]
    obtain ⟨h1, h2, -⟩ := C143_surface hP ih.1 ho.ret
    exact ⟨ih.1.trans (C144_flow hP ih.1 ho.ret).2.2.1, h1, h2⟩

/-- Two points, bonded to each other. -/
def pair : List (List Nat) := [[1], [0]]

theorem pair_small {P : Const} {b : Bool} {k : Nat} {D : M9}
    (h : vonMises (elastic P (1 / 100) D zero) ≤ 10 ^ 14 * P.bulk) :
    vonMises (elastic P (1 / 100) ((if b then fun _ => D else fun _ => D : Nat → M9) k)
      ((MatState.level ⟨zeroFields, zeroFields⟩ b).stress k)) ≤ 10 ^ 14 * P.bulk := by
  cases b <;> exact h

example : ∃ old new : MatState, steel.Sound ∧ Run steel pair old new ∧ 1 < levelSize pair true ∧
    1 < levelSize pair false := ⟨_, _, steel_sound, .start, by decide, by decide⟩

/-- **C147.**  No step of a run lowers an equivalent plastic strain, and a step changes it only if the
elastic stress reaches the yield stress. -/
theorem C147_monotone {P : Const} (hP : P.Sound) {nbs : List (List Nat)} {old new r : MatState}
    (h : Run P nbs old new) {dt : ℝ} {nodeRate bondRate : Nat → M9}
    (hr : computeCauchyStress P dt nodeRate bondRate nbs.length (encode nbs) old new = .ok r) (b : Bool) {k : Nat}
    (hk : k < levelSize nbs b) :
    (old.level b).eqps k ≤ (r.level b).eqps k ∧
    (vonMises (elastic P dt ((if b then bondRate else nodeRate) k) ((old.level b).stress k)) <
        P.rule.yieldAt ((old.level b).eqps k) →
      (r.level b).eqps k = (old.level b).eqps k ∧
      ((r.level b).stress k).toMatrix =
        elastic P dt ((if b then bondRate else nodeRate) k) ((old.level b).stress k)) := by
  have he := (C147_admissible hP h b hk).1
  obtain ⟨o, ho⟩ := level_update hr b hk
  rw [ho.eqps, ho.stress]
  refine ⟨(C144_flow hP he ho.ret).2.2.1, fun hlt => ?_⟩
  obtain ⟨o', h1, h2, h3⟩ := C143_elastic hP he hlt
  rw [ho.ret] at h1
  cases h1
  exact ⟨h3, h2⟩

/-- **C147.**  If the slope of the yield stress at the start is at most three times the shear modulus, no
run is stopped by the iteration as long as no elastic stress exceeds 10^14 times the bulk modulus. -/
theorem C147_continues {P : Const} (hP : P.Sound) (hm : P.rule.slopeAt 0 ≤ 3 * P.shear) {nbs : List (List Nat)}
    {old new : MatState} (h : Run P nbs old new) {dt : ℝ} {nodeRate bondRate : Nat → M9}
    (hv : ∀ b k, k < levelSize nbs b →
      vonMises (elastic P dt ((if b then bondRate else nodeRate) k) ((old.level b).stress k)) ≤ 10 ^ 14 * P.bulk) :
    ∃ r, computeCauchyStress P dt nodeRate bondRate nbs.length (encode nbs) old new = .ok r := by
  have hret : ∀ b k, k < levelSize nbs b → ∃ o, radialReturn P dt ((if b then bondRate else nodeRate) k)
      ((old.level b).stress k) ((old.level b).eqps k) = .ok o := by
    intro b k hk
    have he := (C147_admissible hP h b hk).1
    exact C145_ends hP _ _ _ he ((C145_slope hP.rule (le_refl 0) he).trans hm) (hv b k hk)
  obtain ⟨a, ha⟩ := updateAll_ok (early := false) (P := P) (dt := dt) (D := nodeRate) (old := old.nodes)
    (l := List.range nbs.length) (new := new.nodes) (fun p hp => hret false p (List.mem_range.mp hp))
  obtain ⟨c, hc⟩ := updateAll_ok (early := P.rule.isSaturation) (P := P) (dt := dt) (D := bondRate) (old := old.bonds)
    (l := (bondsOf nbs).map (·.b)) (new := new.bonds) (fun p hp => hret true p (by
      rw [bondsOf, bondsFrom_pos] at hp
      simpa [levelSize, bondCount] using hp))
  refine ⟨⟨a, c⟩, ?_⟩
  unfold computeCauchyStress
  rw [ha, visited_encode]
  simp only [Outcome.ok_bind]
  rw [hc]
  rfl

theorem steel_hard : steel.rule.slopeAt 0 ≤ 3 * steel.shear := by
  rw [slope_eq steel_sound.rule (le_refl 0), steel_slope]
  norm_num [steel]

theorem steelSat_hard : steelSat.rule.slopeAt 0 ≤ 3 * steelSat.shear := by
  rw [slope_eq steelSat_sound.rule (le_refl 0), steelSat_slope]
  norm_num [steelSat]

/-- A step in which all points and bonds flow. -/
theorem steel_run : ∃ r, computeCauchyStress steel (1 / 100) (fun _ => shearing) (fun _ => shearing) pair.length
    (encode pair) ⟨zeroFields, zeroFields⟩ ⟨zeroFields, zeroFields⟩ = .ok r :=
  C147_continues steel_sound steel_hard .start
    (fun _ _ _ => pair_small (steel_vm.2.trans (by norm_num [steel])))

example : ∃ r, computeCauchyStress steel (1 / 100) (fun _ => shearing) (fun _ => shearing) pair.length
    (encode pair) ⟨zeroFields, zeroFields⟩ ⟨zeroFields, zeroFields⟩ = .ok r ∧
    steel.rule.slopeAt 0 ≤ 3 * steel.shear ∧ steel.rule.yieldAt 0 ≤ vonMises (elastic steel (1 / 100) shearing zero) :=
  let ⟨r, hr⟩ := steel_run
  ⟨r, hr, steel_hard, steel_initial.le.trans steel_vm.1⟩

/-- **C147.**  Symmetric rates of deformation keep the stresses of a run symmetric. -/
theorem C147_symmetric {P : Const} (hP : P.Sound) {nbs : List (List Nat)} {old new r : MatState}
    (h : Run P nbs old new) {dt : ℝ} {nodeRate bondRate : Nat → M9}
    (hr : computeCauchyStress P dt nodeRate bondRate nbs.length (encode nbs) old new = .ok r) (b : Bool) {k : Nat}
    (hk : k < levelSize nbs b) (hD : ((if b then bondRate else nodeRate) k).toMatrixᵀ =
      ((if b then bondRate else nodeRate) k).toMatrix)
    (hs : ((old.level b).stress k).toMatrixᵀ = ((old.level b).stress k).toMatrix) :
    ((r.level b).stress k).toMatrixᵀ = ((r.level b).stress k).toMatrix := by
  obtain ⟨o, ho⟩ := level_update hr b hk
  rw [ho.stress]
  exact C144_symmetric hP (C147_admissible hP h b hk).1 ho.ret hD hs

example : ∃ r, computeCauchyStress steel (1 / 100) (fun _ => shearing) (fun _ => shearing) pair.length
    (encode pair) ⟨zeroFields, zeroFields⟩ ⟨zeroFields, zeroFields⟩ = .ok r ∧ shearing.toMatrixᵀ = shearing.toMatrix := by
  obtain ⟨r, hr⟩ := steel_run
  refine ⟨r, hr, ?_⟩
  ext i j
  fin_cases i <;> fin_cases j <;> rfl

/-! ### C148: the triaxiality -/

/-- The recorded triaxiality is the mean stress over the von Mises stress. -/
def TriaxialityRight : Prop :=
  ∀ (P : Const) (nbs : List (List Nat)) (old new r : MatState) (dt : ℝ) (nodeRate bondRate : Nat → M9), P.Sound →
    Run P nbs old new → computeCauchyStress P dt nodeRate bondRate nbs.length (encode nbs) old new = .ok r →
    ∀ (b : Bool) (k : Nat), k < levelSize nbs b → 1 / 10 ^ 20 ≤ vonMises ((r.level b).stress k).toMatrix →
      (r.level b).triaxiality k =
        mean ((r.level b).stress k).toMatrix / vonMises ((r.level b).stress k).toMatrix

theorem triaxialityOf_eq (a : M9) {m : ℝ} (hm : 1 / 10 ^ 20 ≤ m) : triaxialityOf a m = mean a.toMatrix / m := by
  have : 0 < m := lt_of_lt_of_le (by positivity) hm
  unfold triaxialityOf mean
  rw [max_eq_right hm, diagSum_eq]
  field_simp

/-- **C148**, what holds: the triaxiality is right at the points, and at the bonds with the power law.
Missing: the bonds with the saturating rule. -/
theorem C148_triaxiality_partial {P : Const} (hP : P.Sound) {nbs : List (List Nat)} {old new r : MatState}
    (h : Run P nbs old new) {dt : ℝ} {nodeRate bondRate : Nat → M9}
    (hr : computeCauchyStress P dt nodeRate bondRate nbs.length (encode nbs) old new = .ok r) {b : Bool} {k : Nat}
    (hk : k < levelSize nbs b) (hb : b = false ∨ ∃ y c n, P.rule = .powerLaw y c n)
    (hv : 1 / 10 ^ 20 ≤ vonMises ((r.level b).stress k).toMatrix) :
    (r.level b).triaxiality k =
      mean ((r.level b).stress k).toMatrix / vonMises ((r.level b).stress k).toMatrix := by
  have hm := (C147_admissible hP (.step h hr) b hk).2.1
  obtain ⟨o, ho⟩ := level_update hr b hk
  have hearly : (b && P.rule.isSaturation) = false := by
    rcases hb with rfl | ⟨y, c, n, e⟩
    · rfl
    · rw [e]
      simp [Rule.isSaturation]
  rw [← hm] at hv ⊢
  rw [ho.triaxiality, hearly, ho.stress, ho.mises]
  rw [ho.mises] at hv
  exact triaxialityOf_eq _ hv

example : ∃ r, computeCauchyStress steel (1 / 100) (fun _ => shearing) (fun _ => shearing) pair.length
    (encode pair) ⟨zeroFields, zeroFields⟩ ⟨zeroFields, zeroFields⟩ = .ok r ∧
    (∀ b k, k < levelSize pair b → 1 / 10 ^ 20 ≤ vonMises ((r.level b).stress k).toMatrix) ∧
    ∃ y c n, steel.rule = .powerLaw y c n := by
  obtain ⟨r, hr⟩ := steel_run
  refine ⟨r, hr, fun b k hk => ?_, _, _, _, rfl⟩
  obtain ⟨o, ho⟩ := level_update hr b hk
  have e : radialReturn steel (1 / 100) shearing zero 0 = .ok o := by
    have := ho.ret
    cases b <;> exact this
  have h1 := (C143_surface steel_sound (le_refl 0) e).2.2 (steel_initial.le.trans steel_vm.1)
  have h2 := yield_mono steel_sound.rule (le_refl 0) (C144_flow steel_sound (le_refl 0) e).2.2.1
  rw [ho.stress]
  refine le_trans ?_ (h2.trans h1)
  rw [steel_initial]
  norm_num

/-- Stretching in one direction. -/
def stretching : M9 := ⟨1, 0, 0, 0, 0, 0, 0, 0, 0⟩

theorem stretching_elastic (P : Const) (dt : ℝ) :
    vonMises (elastic P dt stretching zero) = |2 * P.shear * dt| ∧
    mean (elastic P dt stretching zero) = P.bulk * dt := by
  have ht : (dt • stretching.toMatrix).trace = dt := by
    simp [M9.toMatrix, stretching, Matrix.trace, Fin.sum_univ_three]
  have hE : dev (elastic P dt stretching zero) = (2 * P.shear * dt) • dev stretching.toMatrix := by
    unfold elastic
    rw [toMatrix_zero, zero_add, dev_hooke, dev_smul, smul_smul]
  have hm : mean (elastic P dt stretching zero) = P.bulk * dt := by
    unfold elastic
    rw [toMatrix_zero, zero_add, hooke_eq, mean_add, mean_smul, mean_smul, mean_one, mean_dev, ht]
    ring
  have hip : ip (dev stretching.toMatrix) (dev stretching.toMatrix) = 2 / 3 := by
    rw [← devStress_eq, ← contract_eq]
    norm_num [contract, devStress, diagAdd, spherical, stretching]
  refine ⟨?_, hm⟩
  unfold vonMises
  rw [hE, norm9_smul, norm9, hip, mul_comm, mul_assoc, mul_comm (Real.sqrt (2 / 3)), sqrt_prod, mul_one]

/-- **C148**, the full claim is false: after the first step of a run with the saturating rule the
triaxiality of the bonds is zero whatever the stress. -/
theorem C148_stale_first : ¬ TriaxialityRight := by
  intro H
  have hvm : vonMises (elastic steelSat (1 / 100) stretching zero) = 16 / 10 := by
    rw [(stretching_elastic _ _).1]
    norm_num [steelSat]
  have hmean : mean (elastic steelSat (1 / 100) stretching zero) = 16 / 10 := by
    rw [(stretching_elastic _ _).2]
    norm_num [steelSat]
  obtain ⟨r, hr⟩ := C147_continues steelSat_sound steelSat_hard (nbs := pair) .start (dt := 1 / 100)
    (nodeRate := fun _ => stretching) (bondRate := fun _ => stretching)
    (fun _ _ _ => pair_small (by rw [hvm]; norm_num [steelSat]))
  obtain ⟨o, ho⟩ := level_update hr true (k := 0) (by decide)
  have e : radialReturn steelSat (1 / 100) stretching zero 0 = .ok o := ho.ret
  have hge : steelSat.rule.yieldAt 0 ≤ vonMises (elastic steelSat (1 / 100) stretching zero) := by
    rw [hvm, steelSat_initial]
    norm_num
  have h1 := (C143_surface steelSat_sound (le_refl 0) e).2.2 hge
  have hf := C144_flow steelSat_sound (le_refl 0) e
  have h2 := yield_mono steelSat_sound.rule (le_refl 0) hf.2.2.1
  rw [steelSat_initial] at h2
  have hpos : 1 ≤ vonMises ((r.level true).stress 0).toMatrix := by
    rw [ho.stress]
    exact h2.trans h1
  have hz : (r.level true).triaxiality 0 = 0 := by
    rw [ho.triaxiality]
    show triaxialityOf zero o.mises = 0
    simp [triaxialityOf, diagSum, Tensor.zero]
  have hm' : mean ((r.level true).stress 0).toMatrix = 16 / 10 := by
    rw [ho.stress, hf.1, ← hmean, (stretching_elastic _ _).2, toMatrix_zero]
    simp [mean, M9.toMatrix, stretching, Matrix.trace, Fin.sum_univ_three]
  have := H steelSat pair _ _ r (1 / 100) _ _ steelSat_sound .start hr true 0 (by decide)
    (le_trans (by norm_num) hpos)
  rw [hz, hm'] at this
  have : (0 : ℝ) < 16 / 10 / vonMises ((r.level true).stress 0).toMatrix := by positivity
  linarith

/-- **C148**, what the bonds get with the saturating rule: the mean stress of the step before the last one
over the present von Mises stress. -/
theorem C148_stale {P : Const} (hP : P.Sound) {y0 ys c lin : ℝ} (hR : P.rule = .saturation y0 ys c lin)
    {nbs : List (List Nat)} {old new r r' : MatState} (h : Run P nbs old new) {dt dt' : ℝ}
    {nodeRate bondRate nodeRate' bondRate' : Nat → M9}
    (hr : computeCauchyStress P dt nodeRate bondRate nbs.length (encode nbs) old new = .ok r)
    (hr' : computeCauchyStress P dt' nodeRate' bondRate' nbs.length (encode nbs) r
      ⟨r.nodes.swap old.nodes, r.bonds.swap old.bonds⟩ = .ok r') {k : Nat} (hk : k < levelSize nbs true)
    (hv : 1 / 10 ^ 20 ≤ vonMises (r'.bonds.stress k).toMatrix) :
    r'.bonds.triaxiality k = mean (old.bonds.stress k).toMatrix / vonMises (r'.bonds.stress k).toMatrix := by
  have hm := (C147_admissible hP (.step (.step h hr) hr') true hk).2.1
  obtain ⟨o, ho⟩ := level_update hr' true hk
  have hm' : o.mises = vonMises (r'.bonds.stress k).toMatrix := ho.mises.symm.trans hm
  have ht := ho.triaxiality
  rw [hR] at ht
  rw [← hm'] at hv ⊢
  exact ht.trans (triaxialityOf_eq (old.bonds.stress k) hv)

theorem elastic_hold (P : Const) (dt : ℝ) (s : M9) : elastic P dt zero s = s.toMatrix := by
  unfold elastic hooke
  rw [toMatrix_zero]
  simp

/-- Two steps with the saturating rule: stretching, then holding. -/
example : ∃ r r', computeCauchyStress steelSat (1 / 100) (fun _ => shearing) (fun _ => shearing) pair.length
      (encode pair) ⟨zeroFields, zeroFields⟩ ⟨zeroFields, zeroFields⟩ = .ok r ∧
    computeCauchyStress steelSat (1 / 100) (fun _ => zero) (fun _ => zero) pair.length (encode pair) r
      ⟨r.nodes.swap zeroFields, r.bonds.swap zeroFields⟩ = .ok r' ∧
    1 / 10 ^ 20 ≤ vonMises (r.bonds.stress 0).toMatrix := by
  obtain ⟨r, hr⟩ := C147_continues steelSat_sound steelSat_hard (nbs := pair) .start (dt := 1 / 100)
    (nodeRate := fun _ => shearing) (bondRate := fun _ => shearing)
    (fun _ _ _ => pair_small (steelSat_vm.2.trans (by norm_num [steelSat])))
  have hstep : ∀ b k, k < levelSize pair b →
      1 / 10 ^ 20 ≤ vonMises ((r.level b).stress k).toMatrix ∧ vonMises ((r.level b).stress k).toMatrix ≤ 4 := by
    intro b k hk
    obtain ⟨o, ho⟩ := level_update hr b hk
    have e : radialReturn steelSat (1 / 100) shearing zero 0 = .ok o := by
      have := ho.ret
      cases b <;> exact this
    have h1 := (C143_surface steelSat_sound (le_refl 0) e).2.2 (steelSat_initial.le.trans steelSat_vm.1)
    have hf := C144_flow steelSat_sound (le_refl 0) e
    have h2 := yield_mono steelSat_sound.rule (le_refl 0) hf.2.2.1
    rw [ho.stress]
    refine ⟨le_trans ?_ (h2.trans h1), ?_⟩
    · rw [steelSat_initial]
      norm_num
    · obtain ⟨c, h0, hc, hd⟩ := hf.2.1
      refine le_trans ?_ steelSat_vm.2
      unfold vonMises
      rw [hd, norm9_smul, abs_of_nonneg h0]
      have := norm9_nonneg (dev (elastic steelSat (1 / 100) shearing zero))
      exact mul_le_mul_of_nonneg_left (by nlinarith) (Real.sqrt_nonneg _)
  obtain ⟨r', hr'⟩ := C147_continues steelSat_sound steelSat_hard (.step .start hr) (dt := 1 / 100)
    (nodeRate := fun _ => zero) (bondRate := fun _ => zero) (fun b k hk => by
      have e : (if b then fun _ => zero else fun _ => zero : Nat → M9) k = zero := by cases b <;> rfl
      rw [e, elastic_hold]
      exact (hstep b k hk).2.trans (by norm_num [steelSat]))
  exact ⟨r, r', hr, hr', (hstep true 0 (by decide)).1⟩

end Verif.Return
