import Verif.ShearFactor.Lemmas

/-!
# The surface correction factor and the energy of a shear: properties
-/

noncomputable section

namespace Verif.ShearFactor

open Verif Verif.Neigh Verif.Mech
open scoped Classical Matrix

/-! ### A point with two neighbors -/

theorem gamma_pos : 0 < gamma := by rw [gamma]; norm_num

theorem gamma_lt : gamma < 1 := by rw [gamma]; norm_num

/-- A point at the origin with two neighbors in directions at right angles. -/
def cross : Config where
  x := fun k => if k = 1 then ![1, 1, 0] else if k = 2 then ![1, -1, 0] else 0
  y := fun _ => 0
  v := fun _ => 1
  m := fun _ => 0
  damage := fun _ => 0
  omega := fun _ _ => 1
  horizon := 2
  thermal := none

theorem cross_len1 : len (cross.x 1 - cross.x 0) = Real.sqrt 2 := by
  rw [len]
  congr 1
  simp [cross]
  norm_num

theorem cross_len2 : len (cross.x 2 - cross.x 0) = Real.sqrt 2 := by
  rw [len]
  congr 1
  simp [cross]
  norm_num

theorem cross_XY1 : newLength cross .XY 0 1 = Real.sqrt 2 * (1 + gamma) := by
  have h : 0 ≤ 1 + gamma := by linarith [gamma_pos]
  rw [newLength, len, ← Real.sqrt_sq h, ← Real.sqrt_mul (by norm_num)]
  congr 1
  simp [cross, unitShear, Matrix.mulVec, dotProduct, Fin.sum_univ_three]
  ring

theorem cross_XY2 : newLength cross .XY 0 2 = Real.sqrt 2 * (1 - gamma) := by
  have h : 0 ≤ 1 - gamma := by linarith [gamma_lt]
  rw [newLength, len, ← Real.sqrt_sq h, ← Real.sqrt_mul (by norm_num)]
  congr 1
  simp [cross, unitShear, Matrix.mulVec, dotProduct, Fin.sum_univ_three]
  ring

theorem cross_ZX : newLength cross .ZX 0 1 = newLength cross .ZX 0 2 := by
  rw [newLength, newLength, len, len]
  congr 1
  simp [cross, unitShear, Matrix.mulVec, dotProduct, Fin.sum_univ_three]

theorem cross_YZ : newLength cross .YZ 0 1 = newLength cross .YZ 0 2 := by
  rw [newLength, newLength, len, len]
  congr 1
  simp [cross, unitShear, Matrix.mulVec, dotProduct, Fin.sum_univ_three]

theorem cross_volume : weightedVolumeAt cross 0 [1, 2] = 4 := by
  rw [weightedVolumeAt_eq]
  simp only [List.map_cons, List.map_nil, List.sum_cons, List.sum_nil, cross_len1, cross_len2]
  rw [Real.sq_sqrt (by norm_num)]
  simp [cross]
  norm_num

theorem cross_dev2 : dev2 cross 4 .XY 0 [1, 2] = 4 * gamma ^ 2 ∧ dev2 cross 4 .ZX 0 [1, 2] = 0 ∧
    dev2 cross 4 .YZ 0 [1, 2] = 0 := by
  have h2 : Real.sqrt 2 * Real.sqrt 2 = 2 := Real.mul_self_sqrt (by norm_num)
  have hv : ∀ k, cross.v k = 1 := fun _ => rfl
  have ho : ∀ a b, cross.omega a b = 1 := fun _ _ => rfl
  have flat : ∀ M, newLength cross M 0 1 = newLength cross M 0 2 → dev2 cross 4 M 0 [1, 2] = 0 := by
    intro M hM
    simp only [dev2, shearTheta, List.map_cons, List.map_nil, List.sum_cons, List.sum_nil, cross_len1, cross_len2,
      wt, hv, ho, hM]
    have : ∀ e r : ℝ, r * r = 2 → (e - r) - (3 * (1 * 1) * r * (e - r) / 4 +
        (3 * (1 * 1) * r * (e - r) / 4 + 0)) * r / 3 = 0 := by
      intro e r hr
      linear_combination (-(e - r) / 2) * hr
    rw [this _ _ h2]
    norm_num
  refine ⟨?_, flat _ cross_ZX, flat _ cross_YZ⟩
  simp only [dev2, shearTheta, List.map_cons, List.map_nil, List.sum_cons, List.sum_nil, cross_len1, cross_len2,
    wt, hv, ho, cross_XY1, cross_XY2]
  generalize Real.sqrt 2 = r at h2
  have : 3 * (1 * 1) * r * (r * (1 + gamma) - r) / 4 + (3 * (1 * 1) * r * (r * (1 - gamma) - r) / 4 + 0) = 0 := by
    ring
  rw [this]
  linear_combination (2 * gamma ^ 2) * h2

theorem cross_max : maxDev cross 4 0 [1, 2] = 4 * gamma ^ 2 := by
  obtain ⟨h1, h2, h3⟩ := cross_dev2
  have : 0 ≤ 4 * gamma ^ 2 := by positivity
  rw [maxDev, h1, h2, h3, max_eq_left this, max_eq_left this]

theorem gamma_sq_ne : 4 * gamma ^ 2 ≠ 0 := by
  have := gamma_pos
  positivity

theorem cross_init : ∃ R, multiphysicsInit cross true 1 (encode [[1, 2]]) (fun _ => 0) = .ok R := by
  refine (multiphysicsInit_iff cross [[1, 2]] _).2 ?_
  intro p ns hp
  match p, hp with
  | 0, hp =>
    cases hp
    rw [cross_volume, cross_max]
    exact ⟨gamma_sq_ne, Or.inr (by norm_num)⟩
  | p + 1, hp => simp at hp

theorem cross_factor {R : Corrected} (h : multiphysicsInit cross true 1 (encode [[1, 2]]) (fun _ => 0) = .ok R) :
    R.m 0 = 4 ∧ R.scf 0 = 4 / 15 := by
  obtain ⟨h1, -, -, h4⟩ := multiphysicsInit_eq (nbs := [[1, 2]]) h (p := 0) (ns := [1, 2]) rfl
  rw [cross_volume] at h1
  rw [h1, cross_max] at h4
  refine ⟨h1, ?_⟩
  rw [h4]
  have := gamma_pos
  field_simp

theorem cross_nonneg (nbs : List (List Nat)) : Nonneg cross nbs := by
  intro p j _
  exact ⟨by norm_num [cross], by norm_num [cross]⟩

theorem cross_intact (nbs : List (List Nat)) : Energy.Intact cross nbs := fun _ _ _ _ _ => rfl

/-! ## C174: the correction of the multiphysics material -/

theorem corrected_energy {C : Config} {K mu : ℝ} {nbs : List (List Nat)} {m0 : Nat → ℝ} {R : Corrected}
    (h : multiphysicsInit C true nbs.length (encode nbs) m0 = .ok R) (hth : C.thermal = none)
    (hint : Energy.Intact C nbs) {p : Nat} {ns : List Nat} (hp : nbs[p]? = some ns) {M : Mode} {c : V3} {w : ℝ}
    (hE : ShearEnergy C R K mu nbs M c p w) :
    w = classical mu * (dev2 C (R.m p) M p ns / maxDev C (R.m p) p ns) := by
  obtain ⟨-, -, h3, h4⟩ := multiphysicsInit_eq h hp
  have hm := multiphysicsInit_m h (List.getElem?_eq_some_iff.1 hp).1
  rw [shearEnergy_eq hp hth hint hE, h4, classical]
  field_simp
  ring

/-- C174: with the surface correction, an undamaged body that is sheared by the probing amount in the plane of
two axes stores at each point an energy of distortion that is not above the one of classical elasticity, and is
equal to it for at least one of the three planes. -/
theorem C174_energy {C : Config} (K : ℝ) {mu : ℝ} {nbs : List (List Nat)} {m0 : Nat → ℝ} {R : Corrected}
    (h : multiphysicsInit C true nbs.length (encode nbs) m0 = .ok R) (hth : C.thermal = none)
    (hint : Energy.Intact C nbs) (hw : Nonneg C nbs) (hmu : 0 ≤ mu) {p : Nat} (hp : p < nbs.length) :
    (∀ M c w, ShearEnergy C R K mu nbs M c p w → w ≤ classical mu) ∧
    (∃ M, ∀ c w, ShearEnergy C R K mu nbs M c p w → w = classical mu) ∧
    ∀ M c, ∃ w, ShearEnergy C R K mu nbs M c p w := by
  have hns : nbs[p]? = some nbs[p] := List.getElem?_eq_getElem hp
  obtain ⟨-, -, h3, -⟩ := multiphysicsInit_eq h hns
  have hpos := maxDev_pos hw hns h3
  refine ⟨?_, ?_, fun M c => shearEnergy_ok K mu (fun p hp => multiphysicsInit_m h hp) M c p⟩
  · intro M c w hE
    rw [corrected_energy h hth hint hns hE]
    have h1 : dev2 C (R.m p) M p nbs[p] / maxDev C (R.m p) p nbs[p] ≤ 1 :=
      (div_le_one hpos).2 (dev2_le _ _ _ _ _)
    have h2 : 0 ≤ classical mu := by rw [classical]; positivity
    nlinarith
  · obtain ⟨M, hM⟩ := exists_max C (R.m p) p nbs[p]
    refine ⟨M, fun c w hE => ?_⟩
    rw [corrected_energy h hth hint hns hE, hM, div_self h3, mul_one]

example : ∃ R, multiphysicsInit cross true 1 (encode [[1, 2]]) (fun _ => 0) = .ok R ∧ cross.thermal = none ∧
    Energy.Intact cross [[1, 2]] ∧ Nonneg cross [[1, 2]] :=
  ⟨_, cross_init.choose_spec, rfl, cross_intact _, cross_nonneg _⟩

/-- C174: without the correction the energy is not the classical one: here it is too large by the factor 15/4 in the
strongest of the shears. -/
theorem C174_uncorrected : ∃ (C : Config) (nbs : List (List Nat)) (R : Corrected),
    multiphysicsInit C false nbs.length (encode nbs) (fun _ => 0) = .ok R ∧
    (∃ R', multiphysicsInit C true nbs.length (encode nbs) (fun _ => 0) = .ok R') ∧ C.thermal = none ∧
    Energy.Intact C nbs ∧ Nonneg C nbs ∧
    ∀ (K mu : ℝ) c, ShearEnergy C R K mu nbs .XY c 0 (15 / 4 * classical mu) := by
  obtain ⟨m, h1, h2, -⟩ := C22_stored cross [[1, 2]] fun _ => 0
  refine ⟨cross, [[1, 2]], ⟨m, fun _ => 1⟩, ?_, cross_init, rfl, cross_intact _, cross_nonneg _, ?_⟩
  · rw [multiphysicsInit, h1]
    rfl
  · intro K mu c
    have hm : m 0 = 4 := (h2 0 [1, 2] rfl).trans cross_volume
    obtain ⟨w, hE⟩ := shearEnergy_ok (C := cross) (R := ⟨m, fun _ => 1⟩) K mu (nbs := [[1, 2]]) (by
      intro p hp
      have : p = 0 := by simpa using hp
      subst this
      change m 0 ≠ 0
      rw [hm]
      norm_num) .XY c 0
    have e := shearEnergy_eq (nbs := [[1, 2]]) (p := 0) (ns := [1, 2]) rfl rfl (cross_intact _) hE
    simp only [hm] at e
    rw [cross_dev2.1] at e
    have : w = 15 / 4 * classical mu := by
      rw [e, classical]
      ring
    rw [← this]
    exact hE

/-! ## C175: the correction of the material with hardening -/

theorem invertLoop_eq {n p : Nat} {f f' : Nat → ℝ} (h : invertLoop n p f = .ok f') :
    (∀ q, p ≤ q → q < p + n → f q ≠ 0 ∧ f' q = 1 / f q) ∧ ∀ q, q < p → f' q = f q := by
  induction n generalizing p f with
  | zero => cases h; exact ⟨fun q h1 h2 => by omega, fun _ _ => rfl⟩
  | succ n ih =>
    rw [invertLoop] at h
    split at h
    · cases h
    · next hf =>
      obtain ⟨h1, h2⟩ := ih h
      constructor
      · intro q hq1 hq2
        by_cases e : q = p
        · subst e
          refine ⟨hf, ?_⟩
          rw [h2 q (by omega), Function.update_self]
        · have := h1 q (by omega) (by omega)
          rwa [Function.update_of_ne e] at this
      · intro q hq
        rw [h2 q (by omega), Function.update_of_ne (by omega)]

theorem invertLoop_ok {n p : Nat} {f : Nat → ℝ} (h : ∀ q, p ≤ q → q < p + n → f q ≠ 0) :
    ∃ f', invertLoop n p f = .ok f' := by
  induction n generalizing p f with
  | zero => exact ⟨f, rfl⟩
  | succ n ih =>
    rw [invertLoop, if_neg (h p le_rfl (by omega))]
    apply ih
    intro q h1 h2
    rw [Function.update_of_ne (by omega)]
    exact h q (by omega) (by omega)

theorem hardeningInit_eq {C : Config} {nbs : List (List Nat)} {m0 : Nat → ℝ} {R : Corrected}
    (h : hardeningInit C true nbs.length (encode nbs) m0 = .ok R) :
    ∃ R', multiphysicsInit C true nbs.length (encode nbs) m0 = .ok R' ∧ R.m = R'.m ∧
      ∀ p < nbs.length, R'.scf p ≠ 0 ∧ R.scf p = 1 / R'.scf p := by
  rw [hardeningInit] at h
  obtain ⟨m, h1, h⟩ := Outcome.bind_eq_ok.1 h
  obtain ⟨f', h2, h⟩ := Outcome.bind_eq_ok.1 h
  cases h
  rw [if_pos rfl] at h2
  obtain ⟨f, h3, h2⟩ := Outcome.bind_eq_ok.1 h2
  refine ⟨⟨m, f⟩, ?_, rfl, fun p hp => (invertLoop_eq h2).1 p (by omega) (by omega)⟩
  rw [multiphysicsInit, h1, Outcome.ok_bind, if_pos rfl, h3]
  rfl

theorem hardeningInit_ok {C : Config} {nbs : List (List Nat)} {m0 : Nat → ℝ} {R : Corrected}
    (h : multiphysicsInit C true nbs.length (encode nbs) m0 = .ok R) (hs : ∀ p < nbs.length, R.scf p ≠ 0) :
    ∃ R', hardeningInit C true nbs.length (encode nbs) m0 = .ok R' := by
  rw [multiphysicsInit] at h
  obtain ⟨m, h1, h⟩ := Outcome.bind_eq_ok.1 h
  obtain ⟨f, h2, h⟩ := Outcome.bind_eq_ok.1 h
  cases h
  rw [if_pos rfl] at h2
  obtain ⟨f', h3⟩ := invertLoop_ok (n := nbs.length) (p := 0) (f := f) (fun q _ hq => hs q (by omega))
  refine ⟨⟨m, f'⟩, ?_⟩
  rw [hardeningInit, h1, Outcome.ok_bind, if_pos rfl, h2, Outcome.ok_bind, h3]
  rfl

theorem hardeningEnergy_eq {C : Config} {R : Corrected} {P : Hardening.Const} {nbs : List (List Nat)} {M : Mode}
    {c : V3} {w : ℝ} {p : Nat} {ns : List Nat} (hp : nbs[p]? = some ns) (hth : C.thermal = none)
    (hint : Energy.Intact C nbs) (ho : C.omega = fun _ _ => 1) (h : HardeningEnergy C R P nbs M c p w) :
    w = 1 / 2 * (R.scf p * 15 * P.mu / R.m p) * dev2 C (R.m p) M p ns := by
  obtain ⟨th, theta, td, h1, h2, rfl⟩ := h
  have ht := shearedBody_theta hth hint h1 hp
  have hs : ((((bondsOf nbs).filter fun b => b.i = p).map fun b =>
      td b * devExtension (shearedBody C M gamma c) theta b.i b.j * C.v b.j).sum) =
      (ns.map fun j => R.scf p * 15 * P.mu / R.m p * (wt C p j * (newLength C M p j - len (C.x j - C.x p) -
        shearTheta C (R.m p) M p ns * len (C.x j - C.x p) / 3) ^ 2)).sum := by
    apply sum_bonds hp
    intro b hb hi
    have hu := h2 b hb
    rw [Hardening.update] at hu
    simp only [gt_iff_lt, lt_irrefl, if_false] at hu
    have htd := congrArg Prod.fst (Outcome.ok.inj hu)
    simp only at htd
    have hy := shearedBody_dY C M c R.m b
    have hd : devExtension (shearedBody C M gamma c) theta b.i b.j =
        newLength C M b.i b.j - len (C.x b.j - C.x b.i) - theta b.i * len (C.x b.j - C.x b.i) / 3 := by
      rw [← hy]
      rfl
    rw [hd, ← htd, edState, hy, Hardening.alphaOf]
    simp only [withVolumes, shearedBody, Config.zeta, hi, ht, wt, ho]
    ring
  rw [hs, List.sum_map_mul_left, dev2]
  ring

theorem hardeningEnergy_ok {C : Config} {R : Corrected} (P : Hardening.Const) {nbs : List (List Nat)}
    (hm : ∀ p < nbs.length, R.m p ≠ 0) (M : Mode) (c : V3) (p : Nat) :
    ∃ w, HardeningEnergy C R P nbs M c p w := by
  obtain ⟨theta, ht⟩ : ∃ theta, dilatation (withVolumes (shearedBody C M gamma c) R.m) nbs.length
      (encode nbs) (fun _ => 0) = .ok theta := by
    unfold dilatation
    rw [visited_encode]
    refine dilatationLoop_ok (fun b hb => ?_) _
    obtain ⟨ns, h1, _⟩ := mem_bondsOf hb
    exact hm _ (List.getElem?_eq_some_iff.1 h1).1
  refine ⟨_, _, theta, fun b => Hardening.alphaOf (withVolumes (shearedBody C M gamma c) R.m) P R.scf b.i * 1 *
    (edState (withVolumes (shearedBody C M gamma c) R.m) theta b - 0), ht, fun b _ => ?_, rfl⟩
  rw [Hardening.update]
  simp

/-- C175 is false of the material with hardening: it stores the inverse of the factor, so that the energy of the
strongest shear is 225/16 of the classical one here, where it would be 15/4 of it without correction. -/
theorem C175_fails : ∃ (C : Config) (nbs : List (List Nat)) (R : Corrected),
    hardeningInit C true nbs.length (encode nbs) (fun _ => 0) = .ok R ∧ C.thermal = none ∧
    Energy.Intact C nbs ∧ Nonneg C nbs ∧ (C.omega = fun _ _ => 1) ∧
    ∀ (P : Hardening.Const) c, HardeningEnergy C R P nbs .XY c 0 (225 / 16 * classical P.mu) := by
  obtain ⟨R', h'⟩ := cross_init
  obtain ⟨hm, hf⟩ := cross_factor h'
  obtain ⟨R, h⟩ := hardeningInit_ok (nbs := [[1, 2]]) h' (by
    intro p hp
    have : p = 0 := by simpa using hp
    subst this
    rw [hf]
    norm_num)
  refine ⟨cross, [[1, 2]], R, h, rfl, cross_intact _, cross_nonneg _, rfl, fun P c => ?_⟩
  obtain ⟨R'', h'', e1, e2⟩ := hardeningInit_eq h
  have : R'' = R' := Outcome.ok.inj (h''.symm.trans h')
  subst this
  have e3 := (e2 0 (by simp)).2
  rw [hf] at e3
  obtain ⟨w, hE⟩ := hardeningEnergy_ok (C := cross) (R := R) P (nbs := [[1, 2]]) (by
    intro p hp
    have : p = 0 := by simpa using hp
    subst this
    rw [e1, hm]
    norm_num) .XY c 0
  have e := hardeningEnergy_eq (nbs := [[1, 2]]) (p := 0) (ns := [1, 2]) rfl rfl (cross_intact _) rfl hE
  rw [e1, hm, e3, cross_dev2.1] at e
  have : w = 225 / 16 * classical P.mu := by
    rw [e, classical]
    ring
  rw [← this]
  exact hE

/-- C175, what holds instead: for an influence function that is one, the correction squares the ratio to the classical
energy in the shear that has the largest energy without correction (`w0` without, `w` with the correction).

What is missing: equality with the classical energy, see `C175_fails`. -/
theorem C175_squared_partial {C : Config} (P : Hardening.Const) {nbs : List (List Nat)} {m0 m0' : Nat → ℝ} {R R0 : Corrected}
    (h : hardeningInit C true nbs.length (encode nbs) m0 = .ok R)
    (h0 : hardeningInit C false nbs.length (encode nbs) m0' = .ok R0) (hth : C.thermal = none)
    (hint : Energy.Intact C nbs) (ho : C.omega = fun _ _ => 1) (hw : Nonneg C nbs) (hmu : 0 ≤ P.mu) {p : Nat}
    (hp : p < nbs.length) :
    ∃ M, (∀ c w w0, HardeningEnergy C R P nbs M c p w → HardeningEnergy C R0 P nbs M c p w0 →
        w * classical P.mu = w0 ^ 2) ∧
      ∀ M' c w0 w0', HardeningEnergy C R0 P nbs M c p w0 → HardeningEnergy C R0 P nbs M' c p w0' → w0' ≤ w0 := by
  have hns : nbs[p]? = some nbs[p] := List.getElem?_eq_getElem hp
  obtain ⟨R', h', e1, e2⟩ := hardeningInit_eq h
  obtain ⟨m1, -, h3, h4⟩ := multiphysicsInit_eq h' hns
  have hm := multiphysicsInit_m h' hp
  have hpos := maxDev_pos hw hns h3
  obtain ⟨m, k1, k2, -⟩ := C22_stored C nbs m0'
  rw [hardeningInit, k1, Outcome.ok_bind] at h0
  cases h0
  have k3 : m p = R'.m p := by rw [k2 p _ hns, m1]
  have hmpos : 0 < R'.m p := by
    refine lt_of_le_of_ne ?_ (Ne.symm hm)
    rw [m1, weightedVolumeAt_eq]
    apply List.sum_nonneg
    intro t ht
    obtain ⟨j, hj, rfl⟩ := List.mem_map.1 ht
    obtain ⟨a, b⟩ := hw p j ⟨_, hns, hj⟩
    exact mul_nonneg (mul_nonneg b (sq_nonneg _)) a
  have hg := gamma_pos
  obtain ⟨M, hM⟩ := exists_max C (R'.m p) p nbs[p]
  refine ⟨M, ?_, ?_⟩
  · intro c w w0 hE hE0
    rw [hardeningEnergy_eq hns hth hint ho hE, hardeningEnergy_eq hns hth hint ho hE0]
    simp only [k3]
    rw [(e2 p hp).2, e1, hM, h4, classical]
    field_simp
    ring
  · intro M' c w0 w0' hE hE'
    rw [hardeningEnergy_eq hns hth hint ho hE, hardeningEnergy_eq hns hth hint ho hE']
    simp only [k3]
    rw [hM]
    apply mul_le_mul_of_nonneg_left (dev2_le _ _ _ _ _)
    positivity

example : ∃ R R0, hardeningInit cross true 1 (encode [[1, 2]]) (fun _ => 0) = .ok R ∧
    hardeningInit cross false 1 (encode [[1, 2]]) (fun _ => 0) = .ok R0 ∧ cross.thermal = none ∧
    Energy.Intact cross [[1, 2]] ∧ (cross.omega = fun _ _ => 1) ∧ Nonneg cross [[1, 2]] := by
  obtain ⟨R', h'⟩ := cross_init
  obtain ⟨R, h⟩ := hardeningInit_ok (nbs := [[1, 2]]) h' (by
    intro p hp
    have : p = 0 := by simpa using hp
    subst this
    rw [(cross_factor h').2]
    norm_num)
  obtain ⟨m, k1, -, -⟩ := C22_stored cross [[1, 2]] fun _ => 0
  refine ⟨R, ⟨m, fun _ => 1⟩, h, ?_, rfl, cross_intact _, rfl, cross_nonneg _⟩
  rw [hardeningInit]
  exact Outcome.bind_eq_ok.2 ⟨m, k1, rfl⟩

end Verif.ShearFactor
