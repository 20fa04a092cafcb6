import Verif.ShearFactor.EnergyProps

/-!
# The surface correction factor: when it exists and what it depends on
-/

noncomputable section

namespace Verif.ShearFactor

open Verif Verif.Neigh Verif.Mech
open scoped Classical Matrix

/-! ## C176: points for which the factor exists -/

theorem weightedVolumeAt_wt (C : Config) (p : Nat) (ns : List Nat) :
    weightedVolumeAt C p ns = (ns.map fun j => wt C p j * len (C.x j - C.x p) ^ 2).sum := by
  rw [weightedVolumeAt_eq]
  congr 1
  apply List.map_congr_left
  intro j _
  rw [wt]
  ring

theorem shearTheta_eq (C : Config) {m : ℝ} (M : Mode) (p : Nat) (ns : List Nat) :
    shearTheta C m M p ns = 3 / m * (ns.map fun j => wt C p j * len (C.x j - C.x p) *
      (newLength C M p j - len (C.x j - C.x p))).sum := by
  rw [shearTheta, ← List.sum_map_mul_left]
  congr 1
  apply List.map_congr_left
  intro j _
  ring

theorem dev2_zero_of_ratio {C : Config} {M : Mode} {p : Nat} {ns : List Nat} {r : ℝ}
    (h : ∀ j ∈ ns, newLength C M p j = r * len (C.x j - C.x p)) (hm : weightedVolumeAt C p ns ≠ 0) :
    dev2 C (weightedVolumeAt C p ns) M p ns = 0 := by
  have ht : shearTheta C (weightedVolumeAt C p ns) M p ns = 3 * (r - 1) := by
    have e : (ns.map fun j => wt C p j * len (C.x j - C.x p) *
        (newLength C M p j - len (C.x j - C.x p))).sum = (r - 1) * weightedVolumeAt C p ns := by
      rw [weightedVolumeAt_wt, ← List.sum_map_mul_left]
      congr 1
      apply List.map_congr_left
      intro j hj
      rw [h j hj]
      ring
    rw [shearTheta_eq, e]
    field_simp
  rw [dev2, ht]
  apply List.sum_eq_zero
  intro t ht'
  obtain ⟨j, hj, rfl⟩ := List.mem_map.1 ht'
  rw [h j hj]
  ring

theorem len_smul (t : ℝ) (d : V3) : len (t • d) = |t| * len d := by
  rw [len, len, ← Real.sqrt_sq_eq_abs, ← Real.sqrt_mul (sq_nonneg t)]
  congr 1
  simp only [Pi.smul_apply, smul_eq_mul]
  ring

theorem newLength_smul {C : Config} {M : Mode} {p j : Nat} {t : ℝ} {u : V3} (h : C.x j - C.x p = t • u) :
    newLength C M p j = |t| * len (u + gamma • (unitShear M *ᵥ u)) := by
  rw [newLength, h, ← len_smul, Matrix.mulVec_smul]
  congr 1
  rw [smul_add, smul_comm]

/-- C176: if all neighbors of one of the points are on a line through it, in particular if it has one neighbor or none, the
materials cannot be initialized with the correction. -/
theorem C176_line_fails {C : Config} {nbs : List (List Nat)} {p : Nat} {ns : List Nat} (hp : nbs[p]? = some ns) (u : V3)
    (hu : ∀ j ∈ ns, ∃ t : ℝ, C.x j - C.x p = t • u) (m0 : Nat → ℝ) :
    (∀ R, multiphysicsInit C true nbs.length (encode nbs) m0 ≠ .ok R) ∧
    ∀ R, hardeningInit C true nbs.length (encode nbs) m0 ≠ .ok R := by
  have key : ∀ R, multiphysicsInit C true nbs.length (encode nbs) m0 ≠ .ok R := by
    intro R hR
    obtain ⟨h1, -, h3, -⟩ := multiphysicsInit_eq hR hp
    have hm := multiphysicsInit_m hR (List.getElem?_eq_some_iff.1 hp).1
    rw [h1] at h3 hm
    have hl : len u ≠ 0 := by
      intro h0
      apply hm
      rw [weightedVolumeAt_wt]
      apply List.sum_eq_zero
      intro t ht
      obtain ⟨j, hj, rfl⟩ := List.mem_map.1 ht
      obtain ⟨t, e⟩ := hu j hj
      rw [e, len_smul, h0]
      ring
    obtain ⟨M, hM⟩ := exists_max C (weightedVolumeAt C p ns) p ns
    rw [← hM] at h3
    apply h3
    refine dev2_zero_of_ratio (r := len (u + gamma • (unitShear M *ᵥ u)) / len u) ?_ hm
    intro j hj
    obtain ⟨t, e⟩ := hu j hj
    rw [newLength_smul e, e, len_smul]
    field_simp
  refine ⟨key, fun R hR => ?_⟩
  obtain ⟨R', h', -⟩ := hardeningInit_eq hR
  exact key R' h'

/-- A bar: points in a row in the direction (1, 2, 3). -/
example : (∀ j ∈ [0, 2], ∃ t : ℝ, (fun k : Nat => (k : ℝ) • ![1, 2, (3 : ℝ)]) j -
    (fun k : Nat => (k : ℝ) • ![1, 2, (3 : ℝ)]) 1 = t • ![1, 2, (3 : ℝ)]) ∧
    [[1], [0, 2], [1]][1]? = some [0, 2] := by
  refine ⟨fun j _ => ⟨(j : ℝ) - 1, ?_⟩, rfl⟩
  rw [sub_smul]
  simp

theorem len_pos {C : Config} {nbs : List (List Nat)} (hw : Positive C nbs) {p j : Nat} (h : HasBond nbs p j) :
    0 < len (C.x j - C.x p) := by
  refine lt_of_le_of_ne (Real.sqrt_nonneg _) (Ne.symm fun h0 => (hw p j h).1 ?_)
  exact sub_eq_zero.1 (len_eq_zero.1 h0)

theorem volume_pos {C : Config} {nbs : List (List Nat)} (hw : Positive C nbs) {p : Nat} {ns : List Nat}
    (hp : nbs[p]? = some ns) (hne : ns ≠ []) : 0 < weightedVolumeAt C p ns := by
  rw [weightedVolumeAt_wt]
  obtain ⟨j, hj⟩ := List.exists_mem_of_ne_nil ns hne
  have pos : ∀ j ∈ ns, 0 < wt C p j * len (C.x j - C.x p) ^ 2 := by
    intro j hj
    have hb : HasBond nbs p j := ⟨ns, hp, hj⟩
    obtain ⟨-, h2, h3⟩ := hw p j hb
    have := len_pos hw hb
    rw [wt]
    positivity
  refine lt_of_lt_of_le (pos j hj) (List.single_le_sum ?_ _ (List.mem_map.2 ⟨j, hj, rfl⟩))
  intro t ht
  obtain ⟨i, hi, rfl⟩ := List.mem_map.1 ht
  exact (pos i hi).le

theorem maxDev_ne_iff {C : Config} {nbs : List (List Nat)} (hw : Positive C nbs) {p : Nat} {ns : List Nat}
    (hp : nbs[p]? = some ns) : maxDev C (weightedVolumeAt C p ns) p ns ≠ 0 ↔ Distorts C p ns := by
  have hb : ∀ j ∈ ns, HasBond nbs p j := fun j hj => ⟨ns, hp, hj⟩
  constructor
  · intro h
    by_contra hd
    obtain ⟨M, hM⟩ := exists_max C (weightedVolumeAt C p ns) p ns
    rw [← hM] at h
    cases ns with
    | nil => exact h (by simp [dev2])
    | cons k ks =>
      have hk := hb k List.mem_cons_self
      apply h
      refine dev2_zero_of_ratio (r := newLength C M p k / len (C.x k - C.x p)) ?_
        (volume_pos hw hp (by simp)).ne'
      intro j hj
      have hj' := len_pos hw (hb j hj)
      have : newLength C M p j / len (C.x j - C.x p) = newLength C M p k / len (C.x k - C.x p) := by
        by_contra hne
        exact hd ⟨M, j, hj, k, List.mem_cons_self, hne⟩
      rw [← this]
      field_simp
  · rintro ⟨M, j, hj, k, hk, hne⟩ h0
    have hd := dev2_le C (weightedVolumeAt C p ns) M p ns
    rw [h0] at hd
    have nn : ∀ t ∈ ns.map (fun j => wt C p j * (newLength C M p j - len (C.x j - C.x p) -
        shearTheta C (weightedVolumeAt C p ns) M p ns * len (C.x j - C.x p) / 3) ^ 2), 0 ≤ t := by
      intro t ht
      obtain ⟨i, hi, rfl⟩ := List.mem_map.1 ht
      obtain ⟨-, h2, h3⟩ := hw p i (hb i hi)
      rw [wt]
      positivity
    have ratio : ∀ i ∈ ns, newLength C M p i / len (C.x i - C.x p) =
        1 + shearTheta C (weightedVolumeAt C p ns) M p ns / 3 := by
      intro i hi
      have h1 := (List.single_le_sum nn _ (List.mem_map.2 ⟨i, hi, rfl⟩)).trans hd
      obtain ⟨-, h2, h3⟩ := hw p i (hb i hi)
      have hl := len_pos hw (hb i hi)
      have hwt : 0 < wt C p i := mul_pos h3 h2
      have h4 : (newLength C M p i - len (C.x i - C.x p) -
          shearTheta C (weightedVolumeAt C p ns) M p ns * len (C.x i - C.x p) / 3) ^ 2 = 0 := by
        refine le_antisymm ?_ (sq_nonneg _)
        by_contra hc
        push Not at hc
        have := mul_pos hwt hc
        linarith
      have h5 := pow_eq_zero_iff two_ne_zero |>.1 h4
      rw [div_eq_iff hl.ne']
      linarith
    exact hne ((ratio j hj).trans (ratio k hk).symm)

/-- C176: when all bonds have some weight, the materials can be initialized with the correction exactly if every point has
two bonds whose lengths change in different ratios in one of the three shears. -/
theorem C176_iff {C : Config} {nbs : List (List Nat)} (hw : Positive C nbs) (m0 : Nat → ℝ) :
    ((∃ R, multiphysicsInit C true nbs.length (encode nbs) m0 = .ok R) ↔
      ∀ p ns, nbs[p]? = some ns → Distorts C p ns) ∧
    ((∃ R, hardeningInit C true nbs.length (encode nbs) m0 = .ok R) ↔
      ∀ p ns, nbs[p]? = some ns → Distorts C p ns) := by
  have key : (∃ R, multiphysicsInit C true nbs.length (encode nbs) m0 = .ok R) ↔
      ∀ p ns, nbs[p]? = some ns → Distorts C p ns := by
    rw [multiphysicsInit_iff]
    constructor
    · intro h p ns hp
      exact (maxDev_ne_iff hw hp).1 (h p ns hp).1
    · intro h p ns hp
      have hd := h p ns hp
      refine ⟨(maxDev_ne_iff hw hp).2 hd, Or.inr ?_⟩
      obtain ⟨_, j, hj, -⟩ := hd
      exact (volume_pos hw hp (List.ne_nil_of_mem hj)).ne'
  refine ⟨key, ?_⟩
  rw [← key]
  constructor
  · rintro ⟨R, h⟩
    obtain ⟨R', h', -⟩ := hardeningInit_eq h
    exact ⟨R', h'⟩
  · rintro ⟨R, h⟩
    refine hardeningInit_ok h fun p hp => ?_
    have hns : nbs[p]? = some nbs[p] := List.getElem?_eq_getElem hp
    obtain ⟨-, -, h3, h4⟩ := multiphysicsInit_eq h hns
    have hm := multiphysicsInit_m h hp
    have := gamma_pos
    rw [h4]
    positivity

theorem cross_positive : Positive cross [[1, 2]] := by
  rintro p j ⟨ns, hp, hj⟩
  match p, hp with
  | 0, hp =>
    cases hp
    refine ⟨?_, by norm_num [cross], by norm_num [cross]⟩
    rcases (by simpa using hj : j = 1 ∨ j = 2) with rfl | rfl <;> intro h <;>
      simpa [cross] using congrFun h 0
  | p + 1, hp => simp at hp

example : Positive cross [[1, 2]] ∧ Distorts cross 0 [1, 2] :=
  ⟨cross_positive, ((C176_iff cross_positive _).1.1 cross_init) 0 _ rfl⟩

/-! ### Neighbors along the axes -/

/-- The point is displaced along one of the axes. -/
def AlongAxis (d : V3) : Prop := ∃ (a : Fin 3) (t : ℝ), d = Pi.single a t

theorem len_single (a : Fin 3) (t : ℝ) : len (Pi.single a t) = |t| := by
  rw [len, ← Real.sqrt_sq_eq_abs]
  congr 1
  fin_cases a <;> simp [Pi.single, Function.update] <;> ring

theorem newLength_axis {C : Config} {p j : Nat} (h : AlongAxis (C.x j - C.x p)) (M : Mode) :
    newLength C M p j = len (C.x j - C.x p) ∨
    newLength C M p j = Real.sqrt (1 + gamma ^ 2) * len (C.x j - C.x p) := by
  obtain ⟨a, t, e⟩ := h
  rw [newLength, e, len_single, ← Real.sqrt_sq_eq_abs, ← Real.sqrt_mul (by positivity), len]
  have : ∀ s : ℝ, s = t ^ 2 ∨ s = (1 + gamma ^ 2) * t ^ 2 →
      Real.sqrt s = Real.sqrt (t ^ 2) ∨ Real.sqrt s = Real.sqrt ((1 + gamma ^ 2) * t ^ 2) := by
    rintro s (rfl | rfl)
    · exact Or.inl rfl
    · exact Or.inr rfl
  apply this
  cases M <;> fin_cases a <;>
    simp [Pi.single, Function.update, unitShear, Matrix.mulVec, dotProduct, Fin.sum_univ_three] <;>
    first
      | (left; ring1)
      | (right; ring1)

/-- C176: if all neighbors of a point are on the lines through it that are parallel to the axes, as in a regular grid with a
horizon less than the diagonal of a cell, the factor is at least 10^12. -/
theorem C176_axes {C : Config} {nbs : List (List Nat)} {m0 : Nat → ℝ} {R : Corrected}
    (h : multiphysicsInit C true nbs.length (encode nbs) m0 = .ok R) (hw : Nonneg C nbs) {p : Nat} {ns : List Nat}
    (hp : nbs[p]? = some ns) (ha : ∀ j ∈ ns, AlongAxis (C.x j - C.x p)) : 10 ^ 12 ≤ R.scf p := by
  obtain ⟨h1, -, h3, h4⟩ := multiphysicsInit_eq h hp
  have hm := multiphysicsInit_m h (List.getElem?_eq_some_iff.1 hp).1
  have hpos := maxDev_pos hw hp h3
  have hwt : ∀ j ∈ ns, 0 ≤ wt C p j := fun j hj =>
    mul_nonneg (hw p j ⟨ns, hp, hj⟩).2 (hw p j ⟨ns, hp, hj⟩).1
  have hmpos : 0 < R.m p := by
    refine lt_of_le_of_ne ?_ (Ne.symm hm)
    rw [h1, weightedVolumeAt_wt]
    apply List.sum_nonneg
    intro t ht
    obtain ⟨j, hj, rfl⟩ := List.mem_map.1 ht
    exact mul_nonneg (hwt j hj) (sq_nonneg _)
  set e := Real.sqrt (1 + gamma ^ 2) - 1 with he
  have hg := gamma_pos
  have e0 : 0 ≤ e := by
    have : (1 : ℝ) ≤ Real.sqrt (1 + gamma ^ 2) := Real.one_le_sqrt.2 (by nlinarith)
    linarith
  have e1 : e ≤ gamma ^ 2 / 2 := by
    have : Real.sqrt (1 + gamma ^ 2) ≤ 1 + gamma ^ 2 / 2 := by
      rw [Real.sqrt_le_left (by positivity)]
      nlinarith [sq_nonneg (gamma ^ 2)]
    linarith
  -- the stretch of each bond
  have hr : ∀ M, ∀ j ∈ ns, ∃ r, 0 ≤ r ∧ r ≤ e ∧ newLength C M p j - len (C.x j - C.x p) = r * len (C.x j - C.x p) := by
    intro M j hj
    rcases newLength_axis (ha j hj) M with h | h
    · exact ⟨0, le_rfl, e0, by rw [h]; ring⟩
    · exact ⟨e, e0, le_rfl, by rw [h, he]; ring⟩
  have hdev : ∀ M, dev2 C (R.m p) M p ns ≤ e ^ 2 * R.m p := by
    intro M
    have ht0 : 0 ≤ shearTheta C (R.m p) M p ns := by
      rw [shearTheta_eq]
      apply mul_nonneg (by positivity)
      apply List.sum_nonneg
      intro t ht
      obtain ⟨j, hj, rfl⟩ := List.mem_map.1 ht
      obtain ⟨r, r0, -, hr⟩ := hr M j hj
      have := hwt j hj
      have hl : 0 ≤ len (C.x j - C.x p) := Real.sqrt_nonneg _
      rw [hr]
      positivity
    have ht1 : shearTheta C (R.m p) M p ns ≤ 3 * e := by
      have : (ns.map fun j => wt C p j * len (C.x j - C.x p) *
          (newLength C M p j - len (C.x j - C.x p))).sum ≤ e * R.m p := by
        rw [h1, weightedVolumeAt_wt, ← List.sum_map_mul_left]
        apply List.sum_le_sum
        intro j hj
        obtain ⟨r, r0, r1, hr⟩ := hr M j hj
        rw [hr]
        have := mul_nonneg (hwt j hj) (sq_nonneg (len (C.x j - C.x p)))
        nlinarith
      rw [shearTheta_eq]
      calc 3 / R.m p * _ ≤ 3 / R.m p * (e * R.m p) := mul_le_mul_of_nonneg_left this (by positivity)
        _ = 3 * e := by field_simp
    rw [dev2]
    conv_rhs => rw [h1, weightedVolumeAt_wt, ← List.sum_map_mul_left]
    apply List.sum_le_sum
    intro j hj
    obtain ⟨r, r0, r1, hr⟩ := hr M j hj
    rw [hr]
    have h5 : (r - shearTheta C (R.m p) M p ns / 3) ^ 2 ≤ e ^ 2 := by
      apply sq_le_sq'
      · linarith
      · linarith
    have h6 := mul_nonneg (hwt j hj) (sq_nonneg (len (C.x j - C.x p)))
    calc wt C p j * (r * len (C.x j - C.x p) - shearTheta C (R.m p) M p ns * len (C.x j - C.x p) / 3) ^ 2
        = (r - shearTheta C (R.m p) M p ns / 3) ^ 2 * (wt C p j * len (C.x j - C.x p) ^ 2) := by ring
      _ ≤ e ^ 2 * (wt C p j * len (C.x j - C.x p) ^ 2) := mul_le_mul_of_nonneg_right h5 h6
  obtain ⟨M, hM⟩ := exists_max C (R.m p) p ns
  have hmax : maxDev C (R.m p) p ns ≤ (gamma ^ 2 / 2) ^ 2 * R.m p := by
    rw [← hM]
    refine (hdev M).trans (mul_le_mul_of_nonneg_right ?_ hmpos.le)
    exact pow_le_pow_left₀ e0 e1 2
  rw [h4, le_div_iff₀ (by norm_num), le_div_iff₀ hpos]
  calc (10 : ℝ) ^ 12 * 15 * maxDev C (R.m p) p ns
      ≤ 10 ^ 12 * 15 * ((gamma ^ 2 / 2) ^ 2 * R.m p) := mul_le_mul_of_nonneg_left hmax (by norm_num)
    _ = (10 ^ 12 * 15 * gamma ^ 2 / 4) * gamma ^ 2 * R.m p := by ring
    _ ≤ 4 * gamma ^ 2 * R.m p := by
      have : (10 ^ 12 * 15 * gamma ^ 2 / 4 : ℝ) ≤ 4 := by rw [gamma]; norm_num
      have h7 : 0 ≤ gamma ^ 2 * R.m p := by positivity
      nlinarith
    _ = 4 * gamma * gamma * R.m p := by ring

/-- `cross`, rotated by 45 degrees about the third axis. -/
def plus : Config := { cross with
  x := fun k => if k = 1 then ![Real.sqrt 2, 0, 0] else if k = 2 then ![0, -Real.sqrt 2, 0] else 0 }

theorem plus_axis : ∀ j ∈ [1, 2], AlongAxis (plus.x j - plus.x 0) := by
  intro j hj
  rcases (by simpa using hj : j = 1 ∨ j = 2) with rfl | rfl
  · exact ⟨0, Real.sqrt 2, by funext a; fin_cases a <;> simp [plus]⟩
  · exact ⟨1, -Real.sqrt 2, by funext a; fin_cases a <;> simp [plus]⟩

theorem plus_positive : Positive plus [[1, 2]] := by
  rintro p j ⟨ns, hp, hj⟩
  match p, hp with
  | 0, hp =>
    cases hp
    refine ⟨?_, by norm_num [plus, cross], by norm_num [plus, cross]⟩
    rcases (by simpa using hj : j = 1 ∨ j = 2) with rfl | rfl <;> intro h
    · simpa [plus] using congrFun h 0
    · simpa [plus] using congrFun h 1
  | p + 1, hp => simp at hp

theorem plus_distorts : Distorts plus 0 [1, 2] := by
  have h2 : Real.sqrt 2 * Real.sqrt 2 = 2 := Real.mul_self_sqrt (by norm_num)
  have l1 : len (plus.x 1 - plus.x 0) = Real.sqrt 2 := by
    rw [len]; congr 1; simp [plus]
  have l2 : len (plus.x 2 - plus.x 0) = Real.sqrt 2 := by
    rw [len]; congr 1; simp [plus]
  have n1 : newLength plus .ZX 0 1 = Real.sqrt (2 + 2 * gamma ^ 2) := by
    rw [newLength, len]; congr 1
    simp [plus, unitShear, Matrix.mulVec, dotProduct, Fin.sum_univ_three]
    linear_combination (gamma ^ 2) * h2
  have n2 : newLength plus .ZX 0 2 = Real.sqrt 2 := by
    rw [newLength, len]; congr 1
    simp [plus, unitShear, Matrix.mulVec, dotProduct, Fin.sum_univ_three]
  refine ⟨.ZX, 1, by simp, 2, by simp, ?_⟩
  rw [l1, l2, n1, n2]
  intro h
  have h3 : Real.sqrt 2 ≠ 0 := by positivity
  have h4 := (div_left_inj' h3).1 h
  have h5 := (Real.sqrt_inj (by positivity) (by norm_num)).1 h4
  have := gamma_pos
  nlinarith [sq_nonneg gamma, mul_pos this this]

theorem plus_init : ∃ R, multiphysicsInit plus true 1 (encode [[1, 2]]) (fun _ => 0) = .ok R := by
  refine ((C176_iff plus_positive (fun _ => 0)).1).2 ?_
  intro p ns hp
  match p, hp with
  | 0, hp => cases hp; exact plus_distorts
  | p + 1, hp => simp at hp

example : ∃ R, multiphysicsInit plus true 1 (encode [[1, 2]]) (fun _ => 0) = .ok R ∧ Nonneg plus [[1, 2]] ∧
    ∀ j ∈ [1, 2], AlongAxis (plus.x j - plus.x 0) :=
  ⟨_, plus_init.choose_spec, fun p j h => ⟨(plus_positive p j h).2.1.le, (plus_positive p j h).2.2.le⟩, plus_axis⟩

/-! ## C177: what the factor depends on -/

theorem newLength_scaled {C C' : Config} {M : Mode} {p p' j j' : Nat} {s : ℝ} (hs : 0 < s)
    (h : C'.x j' - C'.x p' = s • (C.x j - C.x p)) : newLength C' M p' j' = s * newLength C M p j := by
  rw [newLength, newLength, h, Matrix.mulVec_smul, smul_comm, ← smul_add, len_smul, abs_of_pos hs]

theorem sum_shape {C C' : Config} {p p' : Nat} {ns ns' : List Nat} {g : Nat → Nat} {s c : ℝ}
    (h : SameShape C C' p p' ns ns' g s c) (f f' : Nat → ℝ) (k : ℝ) (hf : ∀ j ∈ ns, f' (g j) = k * f j) :
    (ns'.map f').sum = k * (ns.map f).sum := by
  rw [(h.ids.map f').sum_eq, List.map_map, ← List.sum_map_mul_left]
  congr 1
  apply List.map_congr_left
  intro j hj
  exact hf j hj

theorem shape_parts {C C' : Config} {p p' : Nat} {ns ns' : List Nat} {g : Nat → Nat} {s c : ℝ} (hs : 0 < s) (hc : 0 < c)
    (h : SameShape C C' p p' ns ns' g s c) :
    weightedVolumeAt C' p' ns' = c * s ^ 2 * weightedVolumeAt C p ns ∧
    ∀ m M, dev2 C' (c * s ^ 2 * m) M p' ns' = c * s ^ 2 * dev2 C m M p ns := by
  have hl : ∀ j ∈ ns, len (C'.x (g j) - C'.x p') = s * len (C.x j - C.x p) := by
    intro j hj
    rw [h.place j hj, len_smul, abs_of_pos hs]
  have hw : ∀ j ∈ ns, wt C' p' (g j) = c * wt C p j := by
    intro j hj
    rw [wt, wt, hl j hj, h.weight j hj, h.volume j hj]
    ring
  constructor
  · rw [weightedVolumeAt_wt, weightedVolumeAt_wt]
    apply sum_shape h
    intro j hj
    rw [hw j hj, hl j hj]
    ring
  · intro m M
    have ht : shearTheta C' (c * s ^ 2 * m) M p' ns' = shearTheta C m M p ns := by
      rw [shearTheta_eq, shearTheta_eq, sum_shape h (fun j => wt C p j * len (C.x j - C.x p) *
        (newLength C M p j - len (C.x j - C.x p))) _ (c * s ^ 2)]
      · by_cases hm : m = 0
        · subst hm; simp
        · field_simp
      · intro j hj
        rw [hw j hj, hl j hj, newLength_scaled hs (h.place j hj)]
        ring
    rw [dev2, dev2, ht]
    apply sum_shape h
    intro j hj
    rw [hw j hj, hl j hj, newLength_scaled hs (h.place j hj)]
    ring

/-- C177: the factor of a point depends on nothing but the shape of its own reference neighborhood: not on the numbering and
the order of points and neighbors, on the place, on the unit of length or the scale of the volumes, on other points, on the
current positions or on the former content of the arrays. -/
theorem C177_same {C C' : Config} {nbs nbs' : List (List Nat)} {m0 m0' : Nat → ℝ} {R R' : Corrected}
    (h : multiphysicsInit C true nbs.length (encode nbs) m0 = .ok R)
    (h' : multiphysicsInit C' true nbs'.length (encode nbs') m0' = .ok R') {p p' : Nat} {ns ns' : List Nat}
    (hp : nbs[p]? = some ns) (hp' : nbs'[p']? = some ns') {g : Nat → Nat} {s c : ℝ} (hs : 0 < s) (hc : 0 < c)
    (hg : SameShape C C' p p' ns ns' g s c) : R'.scf p' = R.scf p := by
  obtain ⟨a1, -, a3, a4⟩ := multiphysicsInit_eq h hp
  obtain ⟨b1, -, b3, b4⟩ := multiphysicsInit_eq h' hp'
  obtain ⟨e1, e2⟩ := shape_parts hs hc hg
  have em : R'.m p' = c * s ^ 2 * R.m p := by rw [b1, a1, e1]
  have hk : 0 < c * s ^ 2 := by positivity
  have ex : maxDev C' (R'.m p') p' ns' = c * s ^ 2 * maxDev C (R.m p) p ns := by
    rw [em, maxDev, maxDev, e2, e2, e2, mul_max_of_nonneg _ _ hk.le, mul_max_of_nonneg _ _ hk.le]
  rw [a4, b4, ex, em]
  field_simp

/-- `cross`, three times as large, elsewhere, with other volumes, current positions and numbers. -/
def moved : Config := { cross with
  x := fun k => if k = 5 then ![4, 5, 3] else if k = 7 then ![4, -1, 3] else ![1, 2, 3]
  y := fun k => ![k, k, 0]
  v := fun _ => 2 }

example : SameShape cross moved 0 3 [1, 2] [7, 5] (fun j => if j = 1 then 5 else 7) 3 2 where
  ids := by simpa using List.Perm.swap 5 7 []
  place := by
    intro j hj
    rcases (by simpa using hj : j = 1 ∨ j = 2) with rfl | rfl <;> funext a <;> fin_cases a <;>
      simp [cross, moved] <;> norm_num
  volume := by intro j _; norm_num [cross, moved]
  weight := by intro j _; rfl

/-- C177: the factor does depend on the directions of the axes: turning a body by 45 degrees can change it by more than
twelve orders of magnitude. -/
theorem C177_rotation_fails : ∃ (C : Config) (Q : Matrix (Fin 3) (Fin 3) ℝ) (nbs : List (List Nat)) (R R' : Corrected),
    Qᵀ * Q = 1 ∧ Q.det = 1 ∧
    multiphysicsInit C true nbs.length (encode nbs) (fun _ => 0) = .ok R ∧
    multiphysicsInit { C with x := fun k => Q *ᵥ C.x k } true nbs.length (encode nbs) (fun _ => 0) = .ok R' ∧
    Positive C nbs ∧ 10 ^ 12 * R.scf 0 < R'.scf 0 := by
  have h2 : Real.sqrt 2 * Real.sqrt 2 = 2 := Real.mul_self_sqrt (by norm_num)
  obtain ⟨R, h⟩ := cross_init
  obtain ⟨R', h'⟩ := plus_init
  set s := Real.sqrt 2 / 2 with hs
  have hss : s * s = 1 / 2 := by rw [hs]; linear_combination h2 / 4
  refine ⟨cross, !![s, s, 0; -s, s, 0; 0, 0, 1], [[1, 2]], R, R', ?_, ?_, h, ?_, cross_positive, ?_⟩
  · ext i j
    fin_cases i <;> fin_cases j <;> simp [Matrix.mul_apply, Fin.sum_univ_three] <;> linarith
  · rw [Matrix.det_fin_three]
    simp
    linarith
  · have : ({ cross with x := fun k => !![s, s, 0; -s, s, 0; 0, 0, 1] *ᵥ cross.x k } : Config) = plus := by
      have hx : (fun k => !![s, s, 0; -s, s, 0; 0, 0, 1] *ᵥ cross.x k) = plus.x := by
        funext k a
        by_cases h1 : k = 1
        · subst h1
          fin_cases a <;> simp [cross, plus, Matrix.mulVec, dotProduct, Fin.sum_univ_three, hs]
        · by_cases h2 : k = 2
          · subst h2
            fin_cases a <;> simp [cross, plus, Matrix.mulVec, dotProduct, Fin.sum_univ_three, hs] <;> ring
          · simp [cross, plus, h1, h2]
      rw [hx]
      rfl
    rw [this]
    exact h'
  · rw [(cross_factor h).2]
    have := C176_axes (nbs := [[1, 2]]) h' (fun p j h => ⟨(plus_positive p j h).2.1.le, (plus_positive p j h).2.2.le⟩)
      (p := 0) rfl plus_axis
    norm_num at this ⊢
    linarith

end Verif.ShearFactor
