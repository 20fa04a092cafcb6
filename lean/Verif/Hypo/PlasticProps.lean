import Verif.Hypo.MotionProps
import Verif.Correspondence.HardProps
import Verif.Return.Lemmas

/-!
# Hypoelastic correspondence material: plasticity (C167)
-/

noncomputable section

namespace Verif.Hypo

open Verif Verif.Neigh Verif.Mech Verif.Tensor Matrix
open Verif.Assoc (Decompose corner tetraNbs)
open Verif.Correspondence
open scoped Classical

/-- What a law leaves at a point or bond. -/
theorem law_node {α β : Type} {B : Block} {D : Decompose} {order : Nat} {M : Material α β} {dt : ℝ} {H : Harm}
    {y v : Nat → V3} {g : Ghosts} {s : State α β} {nbs : List (List Nat)} {r : Result α β}
    (h : evaluation B D order M dt H y v g s nbs.length (encode nbs) = .ok r) {p : Nat} (hp : p < nbs.length) (hf : H.flag p < 0) :
    ∃ D, M.node dt D (s.now.nodes p).stress (s.now.nodes p).internal (s.nodeExtra p) =
      .ok ((r.arrays.nodes p).stress, (r.arrays.nodes p).internal, r.nodeExtra p) :=
  ⟨_, (advance_parts ((evaluation_parts h).2.node p hp hf)).2.2⟩

theorem law_bond {α β : Type} {B : Block} {D : Decompose} {order : Nat} {M : Material α β} {dt : ℝ} {H : Harm}
    {y v : Nat → V3} {g : Ghosts} {s : State α β} {nbs : List (List Nat)} {r : Result α β}
    (h : evaluation B D order M dt H y v g s nbs.length (encode nbs) = .ok r) {b : Bond} (hb : b ∈ bondsOf nbs) (hf : H.flag b.i < 0) :
    ∃ D, M.bond dt D (s.now.bonds b.b).stress (s.now.bonds b.b).internal (s.bondExtra b.b) =
      .ok ((r.arrays.bonds b.b).stress, (r.arrays.bonds b.b).internal, r.bondExtra b.b) :=
  ⟨_, (advance_parts ((evaluation_parts h).2.bond b hb hf)).2.2⟩

theorem perfect_law {bulk shear yield dt : ℝ} {D sigma : M9} {eqps : ℝ} {o : Extra} {q : M9 × ℝ × Extra} (hy : 0 ≤ yield)
    (h : perfectLaw bulk shear yield dt D sigma eqps o = .ok q) :
    vonMises q.1.toMatrix ≤ yield ∧ eqps ≤ q.2.1 ∧
    q.2.2 = ⟨vonMises q.1.toMatrix, mean q.1.toMatrix / max (1 / 10 ^ 20) (vonMises q.1.toMatrix)⟩ := by
  obtain ⟨w, h1, h2⟩ := Outcome.bind_eq_ok.mp h
  cases h2
  obtain ⟨a1, a2, -, -, -, a6⟩ := C82_step bulk shear yield dt D sigma eqps w hy h1
  refine ⟨a1, a6, ?_⟩
  show (⟨w.mises, Verif.Return.triaxialityOf w.stress w.mises⟩ : Extra) = ⟨vonMises w.stress.toMatrix,
    mean w.stress.toMatrix / max (1 / 10 ^ 20) (vonMises w.stress.toMatrix)⟩
  rw [Verif.Return.triaxialityOf, diagSum_eq, a2, mean, div_div]

/-- Von Mises stresses of the points and bonds of both states. -/
def Bounded (yield : ℝ) (a : Arrays ℝ) : Prop :=
  (∀ p, vonMises (a.nodes p).stress.toMatrix ≤ yield) ∧ ∀ k, vonMises (a.bonds k).stress.toMatrix ≤ yield

theorem bounded_step {B : Block} {D : Decompose} {order : Nat} {bulk shear yield : ℝ} (hy : 0 ≤ yield) {dt : ℝ} {H : Harm}
    {y v : Nat → V3} {g : Ghosts} {s : State ℝ Extra} {nbs : List (List Nat)} {r : Result ℝ Extra}
    (h : evaluation B D order (perfect bulk shear yield) dt H y v g s nbs.length (encode nbs) = .ok r) (h2 : Bounded yield s.found) :
    Bounded yield r.arrays := by
  have hp := (evaluation_parts h).2
  constructor
  · intro p
    by_cases hc : p < nbs.length ∧ H.flag p < 0
    · obtain ⟨E, e⟩ := law_node h hc.1 hc.2
      exact (perfect_law (o := s.nodeExtra p) hy e).1
    · rw [(hp.nodeIdle p hc).1]
      exact h2.1 p
  · intro k
    by_cases hk : k ∈ (liveBonds H (bondsOf nbs)).map (·.b)
    · obtain ⟨b, hb, rfl⟩ := List.mem_map.1 hk
      obtain ⟨hb, hf⟩ := mem_live.mp hb
      obtain ⟨E, e⟩ := law_bond h hb hf
      exact (perfect_law (o := s.bondExtra b.b) hy e).1
    · rw [(hp.bondIdle k hk).1]
      exact h2.2 k

/-- **C167** In a run of the perfectly plastic material no von Mises stress exceeds the yield stress, at points and bonds, flying or
not. -/
theorem C167_perfect_bound {B : Block} {D : Decompose} {order : Nat} {bulk shear yield : ℝ} (hy : 0 ≤ yield) {a : ℝ} {o : Extra}
    {nbs : List (List Nat)} {A : Harm → Prop} {s : State ℝ Extra} (hrun : Run B D order (perfect bulk shear yield) a o nbs A s) :
    (∀ p, vonMises (s.now.nodes p).stress.toMatrix ≤ yield) ∧ ∀ k, vonMises (s.now.bonds k).stress.toMatrix ≤ yield := by
  have key : Bounded yield s.now ∧ Bounded yield s.found := by
    induction hrun with
    | start =>
      have e : Bounded yield (initialState a o).now := by
        have : vonMises (Tensor.zero).toMatrix = 0 := by
          rw [toMatrix_zero, vonMises, dev_zero, norm9_zero, mul_zero]
        exact ⟨fun p => this.le.trans hy, fun p => this.le.trans hy⟩
      exact ⟨e, e⟩
    | step _ _ h ih => exact ⟨bounded_step hy h ih.2, ih.1⟩
    | again _ _ h ih => exact ⟨ih.1, bounded_step hy h ih.2⟩
  exact key.1

theorem perfect_total {shear : ℝ} (hs : shear ≠ 0) (bulk yield dt : ℝ) (D s : M9) (a : ℝ) (o : Extra) :
    ∃ r, perfectLaw bulk shear yield dt D s a o = .ok r := by
  unfold perfectLaw perfectPoint
  simp only
  rw [if_neg hs]
  split <;> exact ⟨_, rfl⟩

/-- A step that flows: the elastic stress of `quad_stretched` has von Mises stress 2√3. -/
theorem quad_flows : ∃ (D : Decompose) (r : Result ℝ Extra), D.Correct ∧
    evaluation quad D 1 (perfect 3 1 1) 1 calm corner (fun k => pull0 *ᵥ corner k + 0) still (initialState 0 ⟨0, 0⟩) tetraNbs.length
      (encode tetraNbs) = .ok r ∧
    ∀ p < tetraNbs.length, (r.pre.grad p).toMatrix = pull0 := by
  obtain ⟨D, hD⟩ := Verif.Assoc.correct_exists
  obtain ⟨r, hr⟩ := quad_defined D (M := perfect 3 1 1) (perfect_total one_ne_zero 3 1) (perfect_total one_ne_zero 3 1) 1 calm
    (fun k => pull0 *ᵥ corner k + 0) still (s := initialState 0 ⟨0, 0⟩) rfl
  exact ⟨D, r, hD, hr, (affine_pre hD (evaluation_parts hr).1 Verif.Assoc.tetra_within (fun _ => by norm_num [calm])
    (by norm_num [quad]) (fun p hp => quad_placed rfl (fun _ => rfl) hp) fun _ => rfl).1⟩

example : ∃ (D : Decompose) (s : State ℝ Extra), Run quad D 1 (perfect 3 1 1) 0 ⟨0, 0⟩ tetraNbs (Grounded tetraNbs) s := by
  obtain ⟨D, r, hD, hr, -⟩ := quad_flows
  exact ⟨D, _, .step .start calm_grounded hr⟩

/-- **C167** In each step of the perfectly plastic material the equivalent plastic strain of points and bonds that do not fly does not
decrease, and von Mises stress and triaxiality that are written are those of the new stress. -/
theorem C167_perfect_step {B : Block} {D : Decompose} {order : Nat} {bulk shear yield : ℝ} (hy : 0 ≤ yield) {dt : ℝ} {H : Harm}
    {y v : Nat → V3} {g : Ghosts} {s : State ℝ Extra} {nbs : List (List Nat)} {r : Result ℝ Extra}
    (h : evaluation B D order (perfect bulk shear yield) dt H y v g s nbs.length (encode nbs) = .ok r) :
    (∀ p < nbs.length, H.flag p < 0 → (s.now.nodes p).internal ≤ (r.arrays.nodes p).internal ∧
      r.nodeExtra p = ⟨vonMises (r.arrays.nodes p).stress.toMatrix, mean (r.arrays.nodes p).stress.toMatrix /
        max (1 / 10 ^ 20) (vonMises (r.arrays.nodes p).stress.toMatrix)⟩) ∧
    ∀ b ∈ bondsOf nbs, H.flag b.i < 0 → (s.now.bonds b.b).internal ≤ (r.arrays.bonds b.b).internal ∧
      r.bondExtra b.b = ⟨vonMises (r.arrays.bonds b.b).stress.toMatrix, mean (r.arrays.bonds b.b).stress.toMatrix /
        max (1 / 10 ^ 20) (vonMises (r.arrays.bonds b.b).stress.toMatrix)⟩ := by
  constructor
  · intro p hp hf
    obtain ⟨E, e⟩ := law_node h hp hf
    exact (perfect_law (o := s.nodeExtra p) hy e).2
  · intro b hb hf
    obtain ⟨E, e⟩ := law_bond h hb hf
    exact (perfect_law (o := s.bondExtra b.b) hy e).2

example : ∃ (D : Decompose) (r : Result ℝ Extra), evaluation quad D 1 (perfect 3 1 1) 1 calm corner (fun k => pull0 *ᵥ corner k + 0) still
      (initialState 0 ⟨0, 0⟩) tetraNbs.length (encode tetraNbs) = .ok r ∧ calm.flag 0 < 0 := by
  obtain ⟨D, r, -, hr, -⟩ := quad_flows
  exact ⟨D, r, hr, by norm_num [calm]⟩

/-! ### Hardening -/

theorem hardened_nonneg {yield strain exponent eqps y : ℝ} (h0 : 0 ≤ yield)
    (h : Verif.Return.hardened (.powerLaw yield strain exponent) eqps = .ok y) : 0 ≤ y := by
  simp only [Verif.Return.hardened] at h
  split at h
  · cases h
  · obtain ⟨q, h1, h2⟩ := Outcome.bind_eq_ok.mp h
    cases h2
    unfold Verif.Return.pow at h1
    split at h1
    · cases h1
    · next hc =>
      cases h1
      push Not at hc
      exact mul_nonneg h0 (Real.rpow_nonneg hc.1 _)

theorem powerYield_nonneg {yield strain exponent shear y eqps y' : ℝ} {e S SN : M9} (h0 : 0 ≤ yield)
    (h : powerYield (.powerLaw yield strain exponent) shear y eqps e S SN = .ok y') : 0 ≤ y' := by
  unfold powerYield at h
  obtain ⟨hN, -, h2⟩ := Outcome.bind_eq_ok.mp h
  split at h2
  · cases h2
  · obtain ⟨h1, -, h4⟩ := Outcome.bind_eq_ok.mp h2
    simp only at h4
    split at h4
    · cases h4
    · exact hardened_nonneg h0 h4

theorem trial_mean (bulk shear dt : ℝ) (D sigma : M9) : mean (trialStress bulk shear dt D sigma).toMatrix =
    mean sigma.toMatrix + bulk * (dt • D.toMatrix).trace := by
  rw [trial_eq, mean_add, hooke_eq, mean_add, mean_smul, mean_smul, mean_one, mean_dev]
  ring

/-- **C167** One step at a point of the material with power-law hardening: below the present yield stress it is elastic, the von Mises
stress does not exceed that of the elastic stress, the mean stress is the elastic one, the equivalent plastic strain does not
decrease, and the von Mises stress that is written is that of the new stress. -/
theorem C167_node_partial {bulk shear yield strain exponent : ℝ} (h0 : 0 ≤ yield) {dt : ℝ} {D sigma : M9} {eqps : ℝ}
    {o : Extra} {q : M9 × ℝ × Extra} (h : powerNode bulk shear (.powerLaw yield strain exponent) dt D sigma eqps o = .ok q) :
    (vonMises (sigma.toMatrix + hooke bulk shear (dt • D.toMatrix)) < yield * (1 + eqps / strain) ^ exponent →
      q.1.toMatrix = sigma.toMatrix + hooke bulk shear (dt • D.toMatrix) ∧ q.2.1 = eqps) ∧
    vonMises q.1.toMatrix ≤ vonMises (sigma.toMatrix + hooke bulk shear (dt • D.toMatrix)) ∧
    mean q.1.toMatrix = mean sigma.toMatrix + bulk * (dt • D.toMatrix).trace ∧ eqps ≤ q.2.1 ∧
    q.2.2.mises = vonMises q.1.toMatrix := by
  obtain ⟨y, hy, h2⟩ := Outcome.bind_eq_ok.mp h
  have hyv : y = yield * (1 + eqps / strain) ^ exponent := by
    simp only [Verif.Return.hardened] at hy
    split at hy
    · cases hy
    · obtain ⟨w, h3, h4⟩ := Outcome.bind_eq_ok.mp hy
      cases h4
      unfold Verif.Return.pow at h3
      split at h3
      · cases h3
      · cases h3
        rfl
  rw [← trial_eq, ← hyv]
  have hm := trial_mean bulk shear dt D sigma
  split at h2
  · cases h2
    exact ⟨fun _ => ⟨rfl, rfl⟩, le_refl _, hm, le_refl _, misesOf_dev _⟩
  · next hge =>
    rw [misesOf_dev] at hge
    obtain ⟨y', hy', h3⟩ := Outcome.bind_eq_ok.mp h2
    have hn := powerYield_nonneg h0 hy'
    split at h3
    · next hlt =>
      split at h3
      · cases h3
      · cases h3
        obtain ⟨-, p2, p3⟩ := plasticOut_stress shear y' (devStrain dt D) (trialStress bulk shear dt D sigma) sigma eqps
        rw [misesOf_dev] at hlt
        refine ⟨fun hc => absurd hc hge, ?_, p2.trans hm, le_add_of_nonneg_right (le_max_left _ _), p3⟩
        show vonMises (plasticOut shear y' (devStrain dt D) (trialStress bulk shear dt D sigma) sigma eqps).stress.toMatrix ≤ _
        rw [plasticOut_mises shear y' hn]
        exact (mul_le_of_le_one_right hn (ratio_le _)).trans hlt.le
    · cases h3
      exact ⟨fun _ => ⟨rfl, rfl⟩, le_refl _, hm, le_refl _, misesOf_dev _⟩

/-- A step that flows. -/
theorem node_flows : ∃ q : M9 × ℝ × Extra, powerNode 1 1 (.powerLaw 1 1 0) 1 shearRate Tensor.zero 0 ⟨0, 0⟩ = .ok q ∧
    q.1.toMatrix ≠ Tensor.zero.toMatrix + hooke 1 1 ((1 : ℝ) • shearRate.toMatrix) := by
  have hR : (Verif.Return.Rule.powerLaw 1 1 0).Sound := ⟨one_pos, one_pos, le_refl _, zero_le_one⟩
  have hm : ∀ e : ℝ, (Verif.Return.Rule.powerLaw 1 1 0).modulus e = 0 := fun e => by simp [Verif.Return.Rule.modulus]
  have hy : ∀ e : ℝ, (Verif.Return.Rule.powerLaw 1 1 0).yieldAt e = 1 := fun e => by simp [Verif.Return.Rule.yieldAt]
  have hdl := deltaLambda_nonneg 1 1 0 1 1 one_pos (le_refl _) shearRate Tensor.zero shear_large shear_mises.le
  have he : 0 ≤ 0 + Real.sqrt (2 / 3) * deltaLambda 1 0 1 (devStrain 1 shearRate) (devStress (trialStress 1 1 1 shearRate Tensor.zero))
      (devStress Tensor.zero) := by
    have := mul_nonneg (Real.sqrt_nonneg (2 / 3 : ℝ)) hdl
    linarith
  have h1 : powerYield (.powerLaw 1 1 0) 1 1 0 (devStrain 1 shearRate) (devStress (trialStress 1 1 1 shearRate Tensor.zero))
      (devStress Tensor.zero) = .ok 1 := by
    unfold powerYield
    rw [Verif.Return.hardMod_eq hR (le_refl 0), hm, Outcome.ok_bind, if_neg (by norm_num), Verif.Return.hardMod_eq hR he, hm,
      Outcome.ok_bind]
    simp only
    rw [show (0.5 * (0 + 0) : ℝ) = 0 by norm_num, if_neg (by norm_num), Verif.Return.hardened_eq hR he, hy]
  refine ⟨plasticResult (plasticOut 1 1 (devStrain 1 shearRate) (trialStress 1 1 1 shearRate Tensor.zero) Tensor.zero 0), ?_, ?_⟩
  · unfold powerNode
    simp only
    rw [Verif.Return.hardened_eq hR (le_refl 0), hy, Outcome.ok_bind, if_neg (not_lt.mpr shear_mises.le), h1, Outcome.ok_bind,
      if_pos shear_mises, if_neg one_ne_zero]
  · rw [← trial_eq]
    intro h
    have h2 := plasticOut_mises 1 1 zero_le_one (devStrain 1 shearRate) (trialStress 1 1 1 shearRate Tensor.zero) Tensor.zero 0
    have h3 := shear_mises
    rw [misesOf_dev, ← h] at h3
    change 1 < vonMises (plasticOut 1 1 (devStrain 1 shearRate) (trialStress 1 1 1 shearRate Tensor.zero) Tensor.zero 0).stress.toMatrix at h3
    rw [h2, one_mul] at h3
    exact absurd h3 (not_lt.mpr (ratio_le _))

example : (0 : ℝ) ≤ 1 ∧ ∃ q : M9 × ℝ × Extra, powerNode 1 1 (.powerLaw 1 1 0) 1 shearRate Tensor.zero 0 ⟨0, 0⟩ = .ok q ∧
    q.1.toMatrix ≠ Tensor.zero.toMatrix + hooke 1 1 ((1 : ℝ) • shearRate.toMatrix) := ⟨zero_le_one, node_flows⟩

/-- **C167** Without shear modulus and hardening a step that reaches the yield stress is not defined, even if it does not exceed it:
the estimate divides by zero. -/
theorem C167_fluid_fails {bulk yield strain : ℝ} (hs : strain ≠ 0) {dt : ℝ} {D sigma : M9} {eqps : ℝ}
    {o : Extra} (ht : yield ≤ vonMises (sigma.toMatrix + hooke bulk 0 (dt • D.toMatrix))) :
    ¬ ∃ q, powerNode bulk 0 (.powerLaw yield strain 0) dt D sigma eqps o = .ok q := by
  rintro ⟨q, h⟩
  obtain ⟨y, hy, h2⟩ := Outcome.bind_eq_ok.mp h
  have hyv : y = yield := by
    simp only [Verif.Return.hardened] at hy
    rw [if_neg hs] at hy
    obtain ⟨w, h3, h4⟩ := Outcome.bind_eq_ok.mp hy
    cases h4
    unfold Verif.Return.pow at h3
    split at h3
    · cases h3
    · cases h3
      rw [Real.rpow_zero, mul_one]
  rw [← trial_eq, ← misesOf_dev, ← hyv] at ht
  rw [if_neg (not_lt.mpr ht)] at h2
  obtain ⟨y', h3, -⟩ := Outcome.bind_eq_ok.mp h2
  unfold powerYield at h3
  obtain ⟨hN, h4, h5⟩ := Outcome.bind_eq_ok.mp h3
  have h0 : hN = 0 := by
    simp only [Verif.Return.hardMod] at h4
    rw [if_neg hs] at h4
    obtain ⟨w, h6, h7⟩ := Outcome.bind_eq_ok.mp h4
    cases h7
    simp
  rw [h0, if_pos (by norm_num)] at h5
  cases h5

example : (1 : ℝ) ≠ 0 ∧ (0 : ℝ) ≤ vonMises (Tensor.zero.toMatrix + hooke 1 0 ((1 : ℝ) • shearRate.toMatrix)) :=
  ⟨one_ne_zero, mul_nonneg (Real.sqrt_nonneg _) (Real.sqrt_nonneg _)⟩

/-- **C167** But where the step is elastic the triaxiality that is written is not that of the new stress: it is left as it was, here at
zero for a stress with mean 3 and von Mises stress √3/2. -/
theorem C167_triaxiality_fails : ∃ q : M9 × ℝ × Extra, powerNode 1 1 (.powerLaw 1 1 1) 1 ⟨1, 1 / 4, 0, 1 / 4, 1, 0, 0, 0, 1⟩ Tensor.zero 0 ⟨0, 0⟩ = .ok q ∧
    mean q.1.toMatrix = 3 ∧ vonMises q.1.toMatrix = Real.sqrt 3 / 2 ∧ q.2.2.triaxiality = 0 := by
  have hE : (trialStress 1 1 1 ⟨1, 1 / 4, 0, 1 / 4, 1, 0, 0, 0, 1⟩ Tensor.zero).toMatrix = !![3, 1 / 2, 0; 1 / 2, 3, 0; 0, 0, 3] := by
    rw [trial_eq, toMatrix_zero, hooke]
    ext i j
    fin_cases i <;> fin_cases j <;> simp [M9.toMatrix, trace_fin_three] <;> norm_num
  have hmean : mean !![3, 1 / 2, 0; 1 / 2, 3, 0; 0, 0, (3 : ℝ)] = 3 := by
    simp [mean, trace_fin_three]
    norm_num
  have hvm : vonMises !![3, 1 / 2, 0; 1 / 2, 3, 0; 0, 0, (3 : ℝ)] = Real.sqrt 3 / 2 := by
    have : ip (dev !![3, 1 / 2, 0; 1 / 2, 3, 0; 0, 0, (3 : ℝ)]) (dev !![3, 1 / 2, 0; 1 / 2, 3, 0; 0, 0, (3 : ℝ)]) = 1 / 2 := by
      unfold dev
      rw [hmean]
      simp [ip, Fin.sum_univ_three]
      norm_num
    rw [vonMises, norm9, this, ← Real.sqrt_mul (by norm_num), show (3 / 2 * (1 / 2) : ℝ) = 3 / 2 ^ 2 by norm_num, Real.sqrt_div (by norm_num),
      Real.sqrt_sq (by norm_num)]
  have hlt : Real.sqrt 3 / 2 < 1 := by
    have : Real.sqrt 3 < 2 := by
      rw [Real.sqrt_lt' (by norm_num)]
      norm_num
    linarith
  have hy : Verif.Return.hardened (.powerLaw 1 1 1) 0 = .ok 1 := by
    simp only [Verif.Return.hardened, Verif.Return.pow]
    rw [if_neg one_ne_zero, if_neg (by norm_num), Outcome.ok_bind]
    norm_num
  refine ⟨(trialStress 1 1 1 ⟨1, 1 / 4, 0, 1 / 4, 1, 0, 0, 0, 1⟩ Tensor.zero, 0,
    ⟨misesOf (devStress (trialStress 1 1 1 ⟨1, 1 / 4, 0, 1 / 4, 1, 0, 0, 0, 1⟩ Tensor.zero)), 0⟩), ?_, ?_, ?_, rfl⟩
  · unfold powerNode
    simp only
    rw [hy, Outcome.ok_bind, if_pos (by rw [misesOf_dev, hE, hvm]; exact hlt)]
  · rw [hE, hmean]
  · rw [hE, hvm]

/-- **C167** One step at a bond: below the present yield stress it is elastic, the mean stress is the elastic one, the deviatoric stress
a multiple of the elastic one that is not negative, the equivalent plastic strain does not decrease, and von Mises stress and triaxiality
that are written are those of the new stress. -/
theorem C167_bond_partial {bulk shear yield strain exponent : ℝ} (h0 : 0 ≤ yield) {dt : ℝ} {D sigma : M9} {eqps : ℝ}
    {o : Extra} {q : M9 × ℝ × Extra} (h : powerBond bulk shear (.powerLaw yield strain exponent) dt D sigma eqps o = .ok q) :
    (vonMises (sigma.toMatrix + hooke bulk shear (dt • D.toMatrix)) < yield * (1 + eqps / strain) ^ exponent →
      q.1.toMatrix = sigma.toMatrix + hooke bulk shear (dt • D.toMatrix) ∧ q.2.1 = eqps) ∧
    (∃ c : ℝ, 0 ≤ c ∧ dev q.1.toMatrix = c • dev (sigma.toMatrix + hooke bulk shear (dt • D.toMatrix))) ∧
    mean q.1.toMatrix = mean sigma.toMatrix + bulk * (dt • D.toMatrix).trace ∧ eqps ≤ q.2.1 ∧
    q.2.2 = ⟨vonMises q.1.toMatrix, mean q.1.toMatrix / max (1 / 10 ^ 20) (vonMises q.1.toMatrix)⟩ := by
  obtain ⟨y, hy, h2⟩ := Outcome.bind_eq_ok.mp h
  have hyv : y = yield * (1 + eqps / strain) ^ exponent := by
    simp only [Verif.Return.hardened] at hy
    split at hy
    · cases hy
    · obtain ⟨w, h3, h4⟩ := Outcome.bind_eq_ok.mp hy
      cases h4
      unfold Verif.Return.pow at h3
      split at h3
      · cases h3
      · cases h3
        rfl
  have key : ∀ w : PlasticOut, w.mises = vonMises w.stress.toMatrix → (plasticResult w).2.2 = ⟨vonMises w.stress.toMatrix,
      mean w.stress.toMatrix / max (1 / 10 ^ 20) (vonMises w.stress.toMatrix)⟩ := by
    intro w hw
    show (⟨w.mises, Verif.Return.triaxialityOf w.stress w.mises⟩ : Extra) = _
    rw [Verif.Return.triaxialityOf, diagSum_eq, hw, mean, div_div]
  rw [← trial_eq, ← hyv]
  have hm := trial_mean bulk shear dt D sigma
  split at h2
  · cases h2
    exact ⟨fun _ => ⟨rfl, rfl⟩, ⟨1, zero_le_one, (one_smul _ _).symm⟩, hm, le_refl _, key _ (misesOf_dev _)⟩
  · next hge =>
    rw [misesOf_dev] at hge
    obtain ⟨y', hy', h3⟩ := Outcome.bind_eq_ok.mp h2
    have hn := powerYield_nonneg h0 hy'
    split at h3
    · cases h3
    · cases h3
      obtain ⟨p1, p2, p3⟩ := plasticOut_stress shear y' (devStrain dt D) (trialStress bulk shear dt D sigma) sigma eqps
      exact ⟨fun hc => absurd hc hge, ⟨_, div_nonneg (mul_nonneg (Real.sqrt_nonneg _) hn) (magnitude_pos _).le, p1⟩, p2.trans hm,
        le_add_of_nonneg_right (le_max_left _ _), key _ p3⟩

/-- Shear stress or shear strain. -/
def xyShear (a : ℝ) : M9 := ⟨0, a, 0, a, 0, 0, 0, 0, 0⟩

theorem xyShear_trace (a : ℝ) : (xyShear a).toMatrix.trace = 0 := by
  simp [xyShear, M9.toMatrix, trace_fin_three]

theorem xyShear_smul (a b : ℝ) : a • (xyShear b).toMatrix = (xyShear (a * b)).toMatrix := by
  ext i j
  fin_cases i <;> fin_cases j <;> simp [xyShear, M9.toMatrix]

theorem xyShear_add (a b : ℝ) : (xyShear a).toMatrix + (xyShear b).toMatrix = (xyShear (a + b)).toMatrix := by
  ext i j
  fin_cases i <;> fin_cases j <;> simp [xyShear, M9.toMatrix]

theorem xyShear_dev (a : ℝ) : dev (xyShear a).toMatrix = (xyShear a).toMatrix := by
  rw [dev, mean, xyShear_trace, zero_div, zero_smul, sub_zero]

theorem xyShear_devStress (a : ℝ) : devStress (xyShear a) = xyShear a := by
  apply toMatrix_injective
  rw [devStress_eq, xyShear_dev]

theorem xyShear_contract (a b : ℝ) : contract (xyShear a) (xyShear b) = 2 * (a * b) := by
  rw [contract_eq]
  simp [ip, Fin.sum_univ_three, xyShear, M9.toMatrix]
  ring

theorem xyShear_vonMises {a : ℝ} (ha : 0 ≤ a) : vonMises (xyShear a).toMatrix = Real.sqrt 3 * a := by
  rw [vonMises, xyShear_dev, norm9, ← contract_eq, xyShear_contract, ← Real.sqrt_mul (by norm_num),
    show (3 / 2 * (2 * (a * a)) : ℝ) = 3 * a ^ 2 by ring, Real.sqrt_mul (by norm_num), Real.sqrt_sq ha]

/-- **C167** But at a bond whose elastic stress reaches the yield stress the new stress can exceed both: a step from shear stress -1 to
the elastic stress 1, whose von Mises stress √3 is the yield stress, leaves the shear stress 2, with no plastic strain. -/
theorem C167_bond_fails : ∃ q : M9 × ℝ × Extra,
    powerBond 1 (1 / 3) (.powerLaw (Real.sqrt 3) (Real.sqrt 3) 1) 1 (xyShear 3) (xyShear (-1)) 0 ⟨0, 0⟩ = .ok q ∧
    (xyShear (-1)).toMatrix + hooke 1 (1 / 3) ((1 : ℝ) • (xyShear 3).toMatrix) = (xyShear 1).toMatrix ∧
    vonMises (xyShear 1).toMatrix = Real.sqrt 3 * (1 + 0 / Real.sqrt 3) ^ (1 : ℝ) ∧
    q.1 = xyShear 2 ∧ q.2.1 = 0 ∧ vonMises q.1.toMatrix = 2 * Real.sqrt 3 := by
  have h3 : Real.sqrt 3 ≠ 0 := by positivity
  have hp3 : 0 < Real.sqrt 3 := by positivity
  have hsq : Real.sqrt 3 * Real.sqrt 3 = 3 := Real.mul_self_sqrt (by norm_num)
  have hE : (xyShear (-1)).toMatrix + hooke 1 (1 / 3) ((1 : ℝ) • (xyShear 3).toMatrix) = (xyShear 1).toMatrix := by
    rw [one_smul, hooke, xyShear_trace, mul_zero, zero_smul, add_zero, xyShear_smul, xyShear_add]
    norm_num
  have hT : trialStress 1 (1 / 3) 1 (xyShear 3) (xyShear (-1)) = xyShear 1 := by
    apply toMatrix_injective
    rw [trial_eq, hE]
  have hv : vonMises (xyShear 1).toMatrix = Real.sqrt 3 := by rw [xyShear_vonMises zero_le_one, mul_one]
  have hstrain : devStrain 1 (xyShear 3) = xyShear 3 := by
    apply toMatrix_injective
    rw [devStrain_eq, one_smul, xyShear_dev]
  have hhard : ∀ e : ℝ, 0 ≤ e → Verif.Return.hardened (.powerLaw (Real.sqrt 3) (Real.sqrt 3) 1) e = .ok (Real.sqrt 3 + e) := by
    intro e he
    have hb : 0 < 1 + e / Real.sqrt 3 := by positivity
    simp only [Verif.Return.hardened]
    rw [if_neg h3, Verif.Return.pow, if_neg (by rintro (h | h) <;> linarith [h]), Outcome.ok_bind, Real.rpow_one]
    congr 1
    field_simp
  have hmod : ∀ e : ℝ, 0 ≤ e → Verif.Return.hardMod (.powerLaw (Real.sqrt 3) (Real.sqrt 3) 1) e = .ok 1 := by
    intro e he
    have hb : 0 < 1 + e / Real.sqrt 3 := by positivity
    simp only [Verif.Return.hardMod]
    rw [if_neg h3, Verif.Return.pow, if_neg (by rintro (h | h) <;> linarith [h]), Outcome.ok_bind, sub_self, Real.rpow_zero]
    congr 1
    field_simp
  have hmag : magnitude (xyShear 1) = Real.sqrt 2 := by
    rw [magnitude, xyShear_contract]
    norm_num
    refine le_trans ?_ (Real.one_le_sqrt.mpr (by norm_num : (1 : ℝ) ≤ 2))
    norm_num
  have hmag' : magnitude (xyShear (-1)) = Real.sqrt 2 := by
    rw [← hmag, magnitude, magnitude, xyShear_contract, xyShear_contract]
    norm_num
  have h22 : Real.sqrt 2 * Real.sqrt 2 = 2 := Real.mul_self_sqrt (by norm_num)
  have hp2 : 0 < Real.sqrt 2 := by positivity
  have h6 : Real.sqrt 6 = Real.sqrt 2 * Real.sqrt 3 := by
    rw [← Real.sqrt_mul (by norm_num)]
    norm_num
  have h23 : Real.sqrt (2 / 3) = Real.sqrt 2 / Real.sqrt 3 := Real.sqrt_div (by norm_num) 3
  have hdl : deltaLambda (1 / 3) 1 (Real.sqrt 3) (xyShear 3) (xyShear 1) (xyShear (-1)) = 3 * Real.sqrt 2 / 2 := by
    unfold deltaLambda
    rw [xyShear_contract, xyShear_contract, hmag, h6, show (2 * (-1 * -1) : ℝ) = 2 by norm_num]
    field_simp
    nlinarith [h22, hsq, hp2, hp3]
  have hest : Real.sqrt (2 / 3) * (3 * Real.sqrt 2 / 2) = Real.sqrt 3 := by
    rw [h23]
    field_simp
    linear_combination (3 : ℝ) * h22 - 2 * hsq
  have hy' : powerYield (.powerLaw (Real.sqrt 3) (Real.sqrt 3) 1) (1 / 3) (Real.sqrt 3) 0 (xyShear 3) (xyShear 1) (xyShear (-1)) =
      .ok (2 * Real.sqrt 3) := by
    unfold powerYield
    rw [hmod 0 (le_refl _), Outcome.ok_bind, if_neg (by norm_num), hdl, hest, hmod _ (by rw [zero_add]; exact hp3.le), Outcome.ok_bind]
    simp only
    rw [show (0.5 * (1 + 1) : ℝ) = 1 by norm_num, if_neg (by norm_num), hdl, hest, hhard _ (by rw [zero_add]; exact hp3.le)]
    congr 1
    ring
  have hret : returned (xyShear 1) (2 * Real.sqrt 3) = xyShear 2 := by
    apply toMatrix_injective
    rw [returned_eq, factor, hmag, xyShear_smul, h23]
    congr 2
    field_simp
  have hout : plasticOut (1 / 3) (2 * Real.sqrt 3) (xyShear 3) (xyShear 1) (xyShear (-1)) 0 =
      ⟨xyShear 2, misesOf (xyShear 2), 0⟩ := by
    unfold plasticOut
    rw [xyShear_devStress, xyShear_devStress, hret]
    have e1 : plasticIncrement (1 / 3) (xyShear 3) (xyShear 2) (xyShear (-1)) = xyShear (-3 / 2) := by
      norm_num [plasticIncrement, sub9, scaled, xyShear]
    have e2 : meanDirection (Real.sqrt 2) (xyShear 2) (xyShear (-1)) = xyShear (1 / (2 * Real.sqrt 2)) := by
      unfold meanDirection
      rw [hmag']
      simp only [scaled, addScaled, xyShear]
      congr 1 <;> field_simp <;> ring
    have e3 : eqpsIncrement (1 / 3) (xyShear 3) (xyShear 1) (xyShear 2) (xyShear (-1)) = 0 := by
      unfold eqpsIncrement
      rw [hmag, e1, e2, xyShear_contract]
      apply max_eq_left
      have : 0 < Real.sqrt (2 / 3) * (1 / (2 * Real.sqrt 2)) := by positivity
      nlinarith
    rw [e3]
    congr 1
    · simp [diagAdd, spherical, xyShear]
    · norm_num
  refine ⟨plasticResult ⟨xyShear 2, misesOf (xyShear 2), 0⟩, ?_, hE, ?_, rfl, rfl, ?_⟩
  · unfold powerBond
    simp only
    rw [hhard 0 (le_refl _), Outcome.ok_bind, hT, misesOf_dev, hv, add_zero, if_neg (lt_irrefl _), hstrain, xyShear_devStress,
      xyShear_devStress, hy', Outcome.ok_bind, if_neg (by norm_num), hout]
  · rw [hv, zero_div, add_zero, Real.one_rpow, mul_one]
  · show vonMises (xyShear 2).toMatrix = _
    rw [xyShear_vonMises (by norm_num), mul_comm]

/-- The step of `C167_bond_fails` is one to which `C167_bond_partial` applies. -/
example : 0 ≤ Real.sqrt 3 ∧ ∃ q : M9 × ℝ × Extra,
    powerBond 1 (1 / 3) (.powerLaw (Real.sqrt 3) (Real.sqrt 3) 1) 1 (xyShear 3) (xyShear (-1)) 0 ⟨0, 0⟩ = .ok q := by
  obtain ⟨q, hq, -⟩ := C167_bond_fails
  exact ⟨Real.sqrt_nonneg _, q, hq⟩

end Verif.Hypo
