import Verif.Assoc.DefinedLemmas
import Verif.Assoc.Exists

/-!
# Bond-associated correspondence material: a body for the examples

The corners of a tetrahedron, each a neighbor of the others.
-/

noncomputable section

namespace Verif.Assoc

open Verif Verif.Neigh Verif.Mech Verif.Tensor Matrix MvPolynomial
open scoped Classical

/-- The corners. -/
def corner (k : Nat) : V3 := if k = 1 then ![1, 0, 0] else if k = 2 then ![0, 1, 0] else if k = 3 then ![0, 0, 1] else 0

def tetra : Body where
  x := corner
  volume := fun _ => 1
  horizon := fun _ => 2
  influence := fun _ _ => 1

def tetraNbs : List (List Nat) := [[1, 2, 3], [0, 2, 3], [0, 1, 3], [0, 1, 2]]

/-- No damage. -/
def intact : Harm := ⟨fun _ => 0, fun _ => 0, fun _ => 0⟩

theorem linear_squares (P : Poly) (h1 : P.totalDegree ≤ 1) (h0 : coeff 0 P = 0) :
    ∑ m ∈ P.support, coeff m P ^ 2 = ∑ c : Fin 3, coeff (Finsupp.single c 1) P ^ 2 := by
  rw [Finset.sum_subset (s₂ := Finset.univ.image fun c : Fin 3 => Finsupp.single c 1), Finset.sum_image]
  · intro a _ b _ h
    exact (Finsupp.single_left_inj one_ne_zero).mp h
  · intro m hm
    have hd := (le_totalDegree hm).trans h1
    rw [Finsupp.sum_fintype _ _ fun _ => rfl, Fin.sum_univ_three] at hd
    have hne : m ≠ 0 := by
      rintro rfl
      exact (mem_support_iff.mp hm) h0
    have hne' : m 0 ≠ 0 ∨ m 1 ≠ 0 ∨ m 2 ≠ 0 := by
      by_contra hc
      push Not at hc
      exact hne (Finsupp.ext fun i => by fin_cases i <;> simp [hc])
    rw [Finset.mem_image]
    rcases hne' with h | h | h
    · exact ⟨0, Finset.mem_univ _, Finsupp.ext fun i => by fin_cases i <;> simp [Finsupp.single_apply] <;> omega⟩
    · exact ⟨1, Finset.mem_univ _, Finsupp.ext fun i => by fin_cases i <;> simp [Finsupp.single_apply] <;> omega⟩
    · exact ⟨2, Finset.mem_univ _, Finsupp.ext fun i => by fin_cases i <;> simp [Finsupp.single_apply] <;> omega⟩
  · intro m _ hm
    rw [notMem_support_iff.mp hm]
    norm_num

theorem linear_eval (P : Poly) (h1 : P.totalDegree ≤ 1) (h0 : coeff 0 P = 0) (q : Fin 3 → ℝ) :
    eval q P = ∑ c : Fin 3, coeff (Finsupp.single c 1) P * q c := by
  have hd : dim 1 = 3 := rfl
  rw [eval_powers 1 P h1, h0, zero_add]
  show ∑ k : Fin 3, _ = _
  refine Finset.sum_congr rfl fun k _ => ?_
  have hm : mon ((powers 1)[(k : Nat)]'(by rw [show (powers 1).length = 3 from rfl]; exact k.2)) = Finsupp.single k 1 :=
    mon_first one_ne_zero k (by rw [hd]; exact k.2)
  have : (powers 1)[(k : Nat)]'(by rw [show (powers 1).length = 3 from rfl]; exact k.2) =
    (if k = 0 then (1, 0, 0) else if k = 1 then (0, 1, 0) else (0, 0, 1)) := by fin_cases k <;> rfl
  show coeff (mon ((powers 1)[(k : Nat)]'_)) P * _ = _
  rw [hm]
  congr 1
  show 1 * q 0 ^ ((powers 1)[(k : Nat)]'_).1 * q 1 ^ ((powers 1)[(k : Nat)]'_).2.1 * q 2 ^ ((powers 1)[(k : Nat)]'_).2.2 = q k
  rw [this]
  fin_cases k <;> simp

theorem tetra_placed {d : Nat → ℝ} (hd : ∀ k, d k = 0) {p : Nat} (hp : p < tetraNbs.length) : WellPlaced tetra 1 d tetraNbs p := by
  refine ⟨1 / 20, by norm_num [tetra], fun P h1 h0 => ?_⟩
  rw [linear_squares P h1 h0]
  simp only [linear_eval P h1 h0, hd]
  have hp : p < 4 := hp
  simp only [Fin.sum_univ_three]
  generalize coeff (Finsupp.single (0 : Fin 3) 1) P = a
  generalize coeff (Finsupp.single (1 : Fin 3) 1) P = b
  generalize coeff (Finsupp.single (2 : Fin 3) 1) P = c
  interval_cases p <;> simp [tetraNbs, tetra, corner] <;>
    nlinarith [sq_nonneg a, sq_nonneg b, sq_nonneg c, sq_nonneg (a - b), sq_nonneg (a - c), sq_nonneg (b - c),
      sq_nonneg (2 * a - b), sq_nonneg (2 * a - c), sq_nonneg (2 * b - a), sq_nonneg (2 * b - c), sq_nonneg (2 * c - a),
      sq_nonneg (2 * c - b)]

theorem tetra_within : Within tetraNbs tetraNbs.length := by
  unfold Within tetraNbs
  simp

theorem tetra_whole : Whole tetra tetraNbs where
  within := tetra_within
  both := by
    intro p q
    rcases p with _ | _ | _ | _ | p <;> rcases q with _ | _ | _ | _ | q <;> simp [tetraNbs]
  horizon := fun _ _ _ => rfl
  influence := fun _ _ => zero_le_one

theorem intact_tame : Tame tetraNbs (fun _ => 0) intact where
  reported := fun _ _ _ _ _ _ hne => absurd rfl hne
  paired := fun _ _ _ _ _ _ _ _ _ _ => rfl
  le_one := fun _ => zero_le_one

theorem tetra_distinct : ∀ b ∈ bondsOf tetraNbs, tetra.x b.i ≠ tetra.x b.j := by
  intro b hb
  obtain ⟨ns, h1, h2⟩ := mem_bondsOf hb
  obtain ⟨i, j, t⟩ := b
  have ne : ∀ {k l : Nat} (c : Fin 3), corner k c ≠ corner l c → corner k ≠ corner l := fun c h e => h (congrFun e c)
  rcases i with _ | _ | _ | _ | i <;> simp [tetraNbs] at h1 <;> subst h1 <;>
    simp only [List.mem_cons, List.not_mem_nil, or_false] at h2 <;> rcases h2 with h2 | h2 | h2 <;>
    subst h2 <;> simp only [tetra] <;>
    first
    | (refine ne 0 ?_; simp [corner]; done)
    | (refine ne 1 ?_; simp [corner]; done)
    | (refine ne 2 ?_; simp [corner]; done)

theorem elastic_total (bulk shear dt : ℝ) (A s : Nat → M9) : ∃ s', elasticUpdate bulk shear dt A s = .ok s' := ⟨_, rfl⟩

theorem tetra_volume {D : Decompose} {U : Update} {A : (Nat → ℝ) → Harm → Prop} {d : Nat → ℝ} {s : State}
    (h : Run tetra D 1 U (fun _ => 0) tetraNbs A d s) : ∀ p < tetraNbs.length, s.w0 p ≠ 0 := by
  intro p hp
  rw [run_volume h hp, bonds_at_sum tetraNbs hp fun b => tetra.influence (len (tetra.x b.j - tetra.x p)) (tetra.horizon p) * tetra.volume b.j]
  have hp : p < 4 := hp
  interval_cases p <;> simp [tetraNbs, tetra] <;> norm_num

theorem tetra_horizon : ∀ p < tetraNbs.length, 0 < tetra.horizon p := fun _ _ => two_pos

/-- The analysis can start. -/
theorem tetra_start (D : Decompose) (U : Update) (A : (Nat → ℝ) → Harm → Prop) :
    ∃ s, initialState tetra D 1 (fun _ => 0) tetraNbs.length (encode tetraNbs) = .ok s ∧
      Run tetra D 1 U (fun _ => 0) tetraNbs A (fun _ => 0) s := by
  obtain ⟨s, h⟩ := start_defined (B := tetra) (D := D) one_ne_zero (fun _ => 0) (nbs := tetraNbs) fun p hp => (tetra_horizon p hp).ne'
  exact ⟨s, h, .start h⟩

/-- Affine motions of the intact body can be evaluated. -/
theorem tetra_moves {D : Decompose} (hD : D.Correct) {bulk shear : ℝ} {s : State}
    (h : Run tetra D 1 (elasticUpdate bulk shear) (fun _ => 0) tetraNbs (Tame tetraNbs) (fun _ => 0) s) (dt : ℝ) {u y v : Nat → V3}
    (g : Ghosts) {F A : Matrix (Fin 3) (Fin 3) ℝ} {f a : V3} (hF : F.det ≠ 0) (hu : ∀ k, u k = y k - tetra.x k)
    (hy : ∀ k, y k = F *ᵥ tetra.x k + f) (hv : ∀ k, v k = A *ᵥ tetra.x k + a) :
    ∃ r, evaluation tetra D 1 (elasticUpdate bulk shear) dt intact u y v g s tetraNbs.length (encode tetraNbs) = .ok r :=
  affine_defined hD one_ne_zero (elastic_total bulk shear) tetra_within (sound_run (h.mono fun _ _ a => a.reported)) dt
    intact_tame.reported g tetra_horizon (fun _ hp => tetra_placed (fun _ => rfl) hp) hF hu hy hv tetra_distinct (tetra_volume h)

/-- A state with stresses: the analysis has made a step in which the body grows. -/
theorem tetra_stressed : ∃ D : Decompose, D.Correct ∧ ∃ s,
    Run tetra D 1 (elasticUpdate 3 1) (fun _ => 0) tetraNbs (Tame tetraNbs) (fun _ => 0) s ∧
    ∀ b ∈ bondsOf tetraNbs, s.stress b.b ≠ zero := by
  obtain ⟨D, hD⟩ := correct_exists
  obtain ⟨s, h, hs⟩ := tetra_start D (elasticUpdate 3 1) (Tame tetraNbs)
  obtain ⟨r, hr⟩ := tetra_moves hD hs 1 (u := fun k => (2 : Matrix (Fin 3) (Fin 3) ℝ) *ᵥ tetra.x k + 0 - tetra.x k)
    (y := fun k => (2 : Matrix (Fin 3) (Fin 3) ℝ) *ᵥ tetra.x k + 0)
    (v := fun k => (1 : Matrix (Fin 3) (Fin 3) ℝ) *ᵥ tetra.x k + 0) ⟨fun _ => zero, fun _ => zero⟩ (F := 2) (A := 1)
    (by rw [show (2 : Matrix (Fin 3) (Fin 3) ℝ) = (2 : ℝ) • 1 by ext i j; simp [Matrix.ofNat_apply, Matrix.one_apply]]
        rw [det_smul]; simp)
    (fun _ => rfl) (fun _ => rfl) fun _ => rfl
  refine ⟨D, hD, r.next s, .step hs intact_tame hr, fun b hb h0 => ?_⟩
  have h0 : r.stress b.b = zero := h0
  have hrun := hs.mono fun _ _ a => a.reported
  have hp := (force_parts (evaluation_parts hr).2).2
  have hsd := sound_step intact_tame.reported (sound_run hrun) hr
  have ho : 0 < r.pre.weights.omega b.b := by
    rw [(sound_omega hsd hb).1]
    simp [influenceOf, tetra, intact]
  obtain ⟨ha, -⟩ := kin_fold (bondsOf_nodup tetraNbs) hp.kin
  obtain ⟨-, hi, -, -, -, hR, e⟩ := (ha b hb).1.active ho
  obtain ⟨g1, g2⟩ := (affine_pre hD tetra_within (sound_run hrun) intact_tame.reported (evaluation_parts hr).1 tetra_horizon
    (fun _ hp => tetra_placed (fun _ => rfl) hp) (F := 2) (A := 1) (f := 0) (a := 0) (fun _ => rfl) (fun _ => rfl)
    fun _ => rfl).2 b hb
  have hinv := product_invert3 ((invert3_code _).mp hi)
  rw [g1] at hinv
  have hz : s.stress b.b = zero ∧ s.rotation b.b = Verif.Correspondence.identity := by
    unfold initialState at h
    rw [visited_encode, Outcome.ok_bind] at h
    obtain ⟨w, h1, h2⟩ := Outcome.bind_eq_ok.mp h
    split at h2
    · cases h2
    · cases h2
      exact ⟨rfl, rfl⟩
  have hst : r.stress b.b = Verif.Correspondence.elasticPoint 3 1 1 none (r.kin.rate b.b) (s.stress b.b) := by
    have := hp.stress
    unfold elasticUpdate at this
    injection this with this
    rw [← this]
  rw [hst] at h0
  have h0 := congrArg (fun m : M9 => m.toMatrix.trace) h0
  simp only [elastic_eq, hz.1, toMatrix_zero, zero_add, trace_add, trace_smul, Verif.Correspondence.diagSum_eq,
    Verif.Correspondence.toMatrix_scaled, Verif.Correspondence.dev, Verif.Correspondence.mean, trace_sub, trace_one,
    trace_zero, smul_eq_mul, one_mul, Fintype.card_fin] at h0
  rw [hz.2] at hR
  have h2 : (invert3 (bondGradient tetra r.pre.grad (fun k => (2 : Matrix (Fin 3) (Fin 3) ℝ) *ᵥ tetra.x k + 0) b)).2.toMatrix =
      (1 / 2 : ℝ) • 1 := by
    generalize (invert3 (bondGradient tetra r.pre.grad (fun k => (2 : Matrix (Fin 3) (Fin 3) ℝ) *ᵥ tetra.x k + 0) b)).2.toMatrix = X at hinv ⊢
    have e2 : (2 : Matrix (Fin 3) (Fin 3) ℝ) = (2 : ℝ) • 1 := by ext i j; simp [Matrix.ofNat_apply, Matrix.one_apply]
    rw [e2, smul_mul_assoc, Matrix.one_mul] at hinv
    rw [← hinv, smul_smul]
    norm_num
  have hG : 3 ≤ ((r.kin.rotation b.b).toMatrixᵀ * (r.kin.rotation b.b).toMatrix).trace := by
    rw [hR, Verif.Correspondence.newRotation_eq, Verif.Correspondence.toMatrix_identity, Matrix.mul_one,
      Verif.Correspondence.qMatrix_gram, trace_sub, trace_one, trace_smul, smul_eq_mul]
    generalize Verif.Correspondence.angularVelocity _ _ = o
    have h3 := Verif.Correspondence.excess_nonneg 1 o
    have h4 : ∀ o, (Verif.Correspondence.axial o * Verif.Correspondence.axial o).trace ≤ 0 := by
      intro o
      simp [Verif.Correspondence.axial, trace, Matrix.mul_apply, Fin.sum_univ_three]
      nlinarith [sq_nonneg (o 0), sq_nonneg (o 1), sq_nonneg (o 2)]
    have := mul_nonneg h3 (neg_nonneg.mpr (h4 o))
    rw [Fintype.card_fin]
    push_cast
    linarith
  rw [e, Verif.Correspondence.unrotated_eq, Verif.Correspondence.toMatrix_mm, g2, h2] at h0
  simp only [Matrix.one_mul, transpose_smul, transpose_one, ← two_smul ℝ ((1 / 2 : ℝ) • (1 : Matrix (Fin 3) (Fin 3) ℝ)), smul_smul,
    mul_smul_comm, smul_mul_assoc, Matrix.mul_one, trace_smul, smul_eq_mul] at h0
  norm_num at h0
  linarith

/-- A shear, and the rate of a rotation. -/
def shear0 : Matrix (Fin 3) (Fin 3) ℝ := !![1, 1, 0; 0, 1, 0; 0, 0, 1]
def spin0 : Matrix (Fin 3) (Fin 3) ℝ := !![0, -1, 0; 1, 0, 0; 0, 0, 0]

def y0 (k : Nat) : V3 := shear0 *ᵥ tetra.x k + 0
def u0 (k : Nat) : V3 := y0 k - tetra.x k
def v0 (k : Nat) : V3 := spin0 *ᵥ y0 k + 0
def g0 : Ghosts := ⟨fun _ => zero, fun _ => zero⟩

theorem spin0_skew : spin0ᵀ = -spin0 := by
  ext i j
  fin_cases i <;> fin_cases j <;> simp [spin0]

/-- In a state with stresses the body is sheared and rotates. -/
theorem tetra_case : ∃ D : Decompose, D.Correct ∧ ∃ s,
    Run tetra D 1 (elasticUpdate 3 1) (fun _ => 0) tetraNbs (Tame tetraNbs) (fun _ => 0) s ∧
    (∀ b ∈ bondsOf tetraNbs, s.stress b.b ≠ zero) ∧ ∃ r,
      evaluation tetra D 1 (elasticUpdate 3 1) 1 intact u0 y0 v0 g0 s tetraNbs.length (encode tetraNbs) = .ok r := by
  obtain ⟨D, hD, s, hs, h0⟩ := tetra_stressed
  exact ⟨D, hD, s, hs, h0, tetra_moves hD hs 1 g0 (F := shear0) (A := spin0 * shear0) (f := 0) (a := spin0 *ᵥ 0 + 0)
    (by simp [shear0, det_fin_three]) (fun _ => rfl) (fun _ => rfl)
    fun k => by rw [v0, y0, mulVec_add, mulVec_mulVec, add_assoc]⟩

/-- All bonds of the last corner break. -/
def lone : Harm where
  damageN := fun _ => 0
  damageNP1 := fun p => if p = 3 then 1 else 1 / 3
  bondDamage := fun k => if k = 2 ∨ k = 5 ∨ 8 ≤ k then 1 else 0

theorem lone_reported (d : Nat → ℝ) : Reported tetraNbs d lone := by
  intro p ns t j _ _ _
  simp only [lone]
  split <;> norm_num

theorem lone_broken {p t j : Nat} {ns : List Nat} (h1 : tetraNbs[p]? = some ns) (h2 : ns[t]? = some j)
    (hk : p = 3 ∨ j = 3) : lone.bondDamage (bondPos tetraNbs p t) = 1 := by
  rcases p with _ | _ | _ | _ | p <;> simp [tetraNbs] at h1 <;> subst h1 <;>
    rcases t with _ | _ | _ | t <;> simp at h2 <;> subst h2 <;> simp at hk <;>
    simp [lone, bondPos, tetraNbs]

/-- At rest the body can be evaluated with the bonds broken. -/
theorem tetra_breaks {D : Decompose} {U : Update} (hU : ∀ dt A s, ∃ s', U dt A s = .ok s') {A : (Nat → ℝ) → Harm → Prop}
    {d : Nat → ℝ} {s : State} (h : Run tetra D 1 U (fun _ => 0) tetraNbs A d s) (dt : ℝ) (H : Harm) (v : Nat → V3) (g : Ghosts) :
    ∃ r, evaluation tetra D 1 U dt H (fun _ => 0) tetra.x v g s tetraNbs.length (encode tetraNbs) = .ok r := by
  obtain ⟨r, h, -⟩ := rest_defined one_ne_zero hU tetra_within s dt H v g (fun p hp => (tetra_horizon p hp).ne') tetra_distinct
    (tetra_volume h) (D := D)
  exact ⟨r, h⟩

end Verif.Assoc
