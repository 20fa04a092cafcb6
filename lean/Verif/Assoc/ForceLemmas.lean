import Verif.Assoc.WeightLemmas
import Verif.Correspondence.ForceLemmas
import Verif.Correspondence.StressLemmas

/-!
# Bond-associated correspondence material: lemmas on kinematics, stresses and forces
-/

noncomputable section

namespace Verif.Assoc

open Verif Verif.Neigh Verif.Mech Verif.Tensor Matrix
open Verif.Correspondence (bondsAt addOuter identity newStretch newRotation unrotated rotateStress mem_bondsAt
  foldl_addOuter toMatrix_mm toMatrix_mmT toMatrix_addScaled)
open scoped Classical

/-- The parts of `computeForce`. -/
structure Parts (B : Body) (U : Update) (dt : ℝ) (y v : Nat → V3) (s : State) (n : Nat) (bonds : List Bond) (r : Result) :
    Prop where
  regular : ∀ p < n, (invert3 (r.pre.grad p)).1 = 0
  kin : bonds.foldlM (kinBond B dt r.pre y v s.stretch s.rotation)
    ⟨s.jacobian, s.inv, s.stretch, s.rotation, fun _ => zero⟩ = .ok r.kin
  stress : U dt r.kin.rate s.stress = .ok r.stress
  cauchy : ∀ k, r.cauchy k = rotateStress (r.kin.rotation k) (r.stress k)
  piola : ∀ k, r.piola k = piolaBond (r.kin.jacobian k) (r.cauchy k) (r.kin.inv k)
  integral : stressIntegral B s.w0 r.pre.weights.omega r.piola n bonds = .ok r.integral
  force : scatter (fun b => B.volume b.i) (fun b => B.volume b.j)
    (forceBond B s.w0 r.pre.weights r.piola r.integral) bonds 0 = .ok r.force

theorem force_parts {B : Body} {U : Update} {dt : ℝ} {y v : Nat → V3} {s : State} {P : Pre} {n : Nat} {bonds : List Bond}
    {r : Result} (h : computeForce B U dt y v s P n bonds = .ok r) : r.pre = P ∧ Parts B U dt y v s n bonds r := by
  unfold computeForce at h
  split at h
  · cases h
  next hreg =>
  obtain ⟨k, h2, h3⟩ := Outcome.bind_eq_ok.mp h
  obtain ⟨sg, h4, h5⟩ := Outcome.bind_eq_ok.mp h3
  obtain ⟨S, h6, h7⟩ := Outcome.bind_eq_ok.mp h5
  obtain ⟨f, h8, h9⟩ := Outcome.bind_eq_ok.mp h7
  cases h9
  refine ⟨rfl, ⟨fun p hp => ?_, h2, h4, fun _ => rfl, fun _ => rfl, h6, h8⟩⟩
  by_contra hne
  apply hreg
  rw [List.any_eq_true]
  exact ⟨p, List.mem_range.mpr hp, by simpa using hne⟩

/-! ### Kinematics -/

/-- What `kinBond` stores for a bond. -/
structure KinOf (B : Body) (dt : ℝ) (P : Pre) (y v : Nat → V3) (V R : Nat → M9) (k : Kin) (b : Bond) : Prop where
  active : 0 < P.weights.omega b.b → lenSq (xi B b) ≠ 0 ∧ (invert3 (bondGradient B P.grad y b)).1 = 0 ∧
    k.jacobian b.b = determinant (bondGradient B P.grad y b) ∧ k.inv b.b = (invert3 (bondGradient B P.grad y b)).2 ∧
    k.stretch b.b = newStretch dt (matrixMultiply false false 1 (bondGradient B P.gradDot v b)
      (invert3 (bondGradient B P.grad y b)).2) (V b.b) ∧
    k.rotation b.b = newRotation dt (matrixMultiply false false 1 (bondGradient B P.gradDot v b)
      (invert3 (bondGradient B P.grad y b)).2) (V b.b) (R b.b) ∧
    k.rate b.b = unrotated (matrixMultiply false false 1 (bondGradient B P.gradDot v b)
      (invert3 (bondGradient B P.grad y b)).2) (k.rotation b.b)
  idle : ¬ 0 < P.weights.omega b.b → k.stretch b.b = V b.b ∧ k.rotation b.b = R b.b ∧ k.rate b.b = zero

theorem kinBond_other {B : Body} {dt : ℝ} {P : Pre} {y v : Nat → V3} {V R : Nat → M9} {k k' : Kin} {b : Bond}
    (h : kinBond B dt P y v V R k b = .ok k') {m : Nat} (hm : m ≠ b.b) :
    k'.jacobian m = k.jacobian m ∧ k'.inv m = k.inv m ∧ k'.stretch m = k.stretch m ∧ k'.rotation m = k.rotation m ∧
      k'.rate m = k.rate m := by
  unfold kinBond at h
  split at h
  · split at h
    · cases h
    · simp only at h
      split at h
      · cases h
      · cases h
        exact ⟨Function.update_of_ne hm _ _, Function.update_of_ne hm _ _, Function.update_of_ne hm _ _,
          Function.update_of_ne hm _ _, Function.update_of_ne hm _ _⟩
  · cases h
    exact ⟨rfl, rfl, Function.update_of_ne hm _ _, Function.update_of_ne hm _ _, Function.update_of_ne hm _ _⟩

theorem kinBond_of {B : Body} {dt : ℝ} {P : Pre} {y v : Nat → V3} {V R : Nat → M9} {k k' : Kin} {b : Bond}
    (h : kinBond B dt P y v V R k b = .ok k') :
    KinOf B dt P y v V R k' b ∧
      (¬ 0 < P.weights.omega b.b → k'.jacobian b.b = k.jacobian b.b ∧ k'.inv b.b = k.inv b.b) := by
  unfold kinBond at h
  split at h
  · next ho =>
    split at h
    · cases h
    · next hl =>
      simp only at h
      split at h
      · cases h
      · next hi =>
        cases h
        refine ⟨⟨fun _ => ⟨hl, not_not.mp hi, Function.update_self _ _ _, Function.update_self _ _ _, Function.update_self _ _ _,
          Function.update_self _ _ _, ?_⟩, fun hn => absurd ho hn⟩, fun hn => absurd ho hn⟩
        simp only [Function.update_self]
  · next ho =>
    cases h
    exact ⟨⟨fun hn => absurd hn ho, fun _ => ⟨Function.update_self _ _ _, Function.update_self _ _ _, Function.update_self _ _ _⟩⟩,
      fun _ => ⟨rfl, rfl⟩⟩

theorem KinOf.congr {B : Body} {dt : ℝ} {P : Pre} {y v : Nat → V3} {V R : Nat → M9} {k k' : Kin} {b : Bond}
    (h : KinOf B dt P y v V R k b) (e1 : k'.jacobian b.b = k.jacobian b.b) (e2 : k'.inv b.b = k.inv b.b)
    (e3 : k'.stretch b.b = k.stretch b.b) (e4 : k'.rotation b.b = k.rotation b.b) (e5 : k'.rate b.b = k.rate b.b) :
    KinOf B dt P y v V R k' b := by
  constructor
  · intro ho
    rw [e1, e2, e3, e4, e5]
    exact h.active ho
  · intro ho
    rw [e3, e4, e5]
    exact h.idle ho

/-- What the loop over the bonds stores. -/
theorem kin_fold {B : Body} {dt : ℝ} {P : Pre} {y v : Nat → V3} {V R : Nat → M9} {bonds : List Bond}
    (hn : (bonds.map (·.b)).Nodup) {k k' : Kin} (h : bonds.foldlM (kinBond B dt P y v V R) k = .ok k') :
    (∀ b ∈ bonds, KinOf B dt P y v V R k' b ∧
      (¬ 0 < P.weights.omega b.b → k'.jacobian b.b = k.jacobian b.b ∧ k'.inv b.b = k.inv b.b)) ∧
    ∀ m, m ∉ bonds.map (·.b) → k'.jacobian m = k.jacobian m ∧ k'.inv m = k.inv m ∧ k'.stretch m = k.stretch m ∧
      k'.rotation m = k.rotation m ∧ k'.rate m = k.rate m := by
  induction bonds generalizing k with
  | nil => cases h; exact ⟨fun b hb => (by cases hb), fun m _ => ⟨rfl, rfl, rfl, rfl, rfl⟩⟩
  | cons c bonds ih =>
    rw [List.foldlM_cons] at h
    obtain ⟨k1, h1, h2⟩ := Outcome.bind_eq_ok.mp h
    rw [List.map_cons, List.nodup_cons] at hn
    obtain ⟨ha, hb⟩ := ih hn.2 h2
    refine ⟨fun b hbm => ?_, fun m hm => ?_⟩
    · rcases List.mem_cons.mp hbm with rfl | hbm
      · obtain ⟨e1, e2, e3, e4, e5⟩ := hb b.b hn.1
        obtain ⟨f1, f2⟩ := kinBond_of h1
        refine ⟨f1.congr e1 e2 e3 e4 e5, fun ho => ?_⟩
        rw [e1, e2]
        exact f2 ho
      · obtain ⟨f1, f2⟩ := ha b hbm
        refine ⟨f1, fun ho => ?_⟩
        have hne : b.b ≠ c.b := fun e => hn.1 (List.mem_map.mpr ⟨b, hbm, e⟩)
        obtain ⟨e1, e2, -, -, -⟩ := kinBond_other h1 hne
        rw [← e1, ← e2]
        exact f2 ho
    · rw [List.map_cons, List.mem_cons, not_or] at hm
      obtain ⟨e1, e2, e3, e4, e5⟩ := hb m hm.2
      obtain ⟨f1, f2, f3, f4, f5⟩ := kinBond_other h1 hm.1
      exact ⟨e1.trans f1, e2.trans f2, e3.trans f3, e4.trans f4, e5.trans f5⟩

/-! ### Matrices -/

theorem toMatrix_mean (a b : M9) : (mean a b).toMatrix = (1 / 2 : ℝ) • (a.toMatrix + b.toMatrix) := by
  ext i j
  fin_cases i <;> fin_cases j <;> simp [mean, M9.toMatrix] <;> norm_num

theorem toMatrix_corrected (m : M9) (d z : V3) :
    (corrected m d z).toMatrix = m.toMatrix + (1 / lenSq d) • vecMulVec (z - m.toMatrix *ᵥ d) d := by
  ext i j
  rw [Matrix.add_apply, Matrix.smul_apply, vecMulVec_apply, Pi.sub_apply]
  fin_cases i <;> fin_cases j <;>
    simp [corrected, M9.toMatrix, mulVec, dotProduct, Fin.sum_univ_three] <;> ring

theorem toMatrix_transverse (d : V3) :
    (transverse d).toMatrix = 1 - (1 / lenSq d) • vecMulVec d d := by
  ext i j
  rw [Matrix.sub_apply, Matrix.smul_apply, vecMulVec_apply]
  fin_cases i <;> fin_cases j <;> simp [transverse, M9.toMatrix] <;> ring

theorem transverse_symm (d : V3) : (transverse d).toMatrixᵀ = (transverse d).toMatrix := by
  rw [toMatrix_transverse, transpose_sub, transpose_one, transpose_smul, transpose_vecMulVec]

/-! ### The integral and the forces -/

/-- `0.5 / w_i + 0.5 / w_j`. -/
def half (w0 : Nat → ℝ) (b : Bond) : ℝ := 0.5 / w0 b.i + 0.5 / w0 b.j

/-- The part of a bond in the integral. -/
def share (B : Body) (w0 omega : Nat → ℝ) (piola : Nat → M9) (b : Bond) : Matrix (Fin 3) (Fin 3) ℝ :=
  if 0 < omega b.b then (omega b.b * half w0 b * B.volume b.j) • ((piola b.b).toMatrix * (transverse (xi B b)).toMatrix)
  else 0

theorem integral_fold {B : Body} {w0 omega : Nat → ℝ} {piola : Nat → M9} (bs : List Bond) {t t' : M9}
    (h : bs.foldlM (integralBond B w0 omega piola) t = .ok t') :
    t'.toMatrix = t.toMatrix + (bs.map (share B w0 omega piola)).sum ∧
    ∀ b ∈ bs, 0 < omega b.b → w0 b.i ≠ 0 ∧ w0 b.j ≠ 0 ∧ lenSq (xi B b) ≠ 0 := by
  induction bs generalizing t with
  | nil => cases h; simp
  | cons b bs ih =>
    rw [List.foldlM_cons] at h
    obtain ⟨t1, h1, h2⟩ := Outcome.bind_eq_ok.mp h
    obtain ⟨e, hd⟩ := ih h2
    unfold integralBond at h1
    split at h1
    · next ho =>
      split at h1
      · cases h1
      · next hz =>
        cases h1
        push Not at hz
        refine ⟨?_, fun c hc => ?_⟩
        · rw [e, toMatrix_addScaled, toMatrix_mm, List.map_cons, List.sum_cons, ← add_assoc]
          congr 2
          rw [share, if_pos ho, half]
        · rcases List.mem_cons.mp hc with rfl | hc
          · exact fun _ => hz
          · exact hd c hc
    · next ho =>
      cases h1
      refine ⟨?_, fun c hc => ?_⟩
      · rw [e, List.map_cons, List.sum_cons, share, if_neg ho, zero_add]
      · rcases List.mem_cons.mp hc with rfl | hc
        · exact fun h => absurd h ho
        · exact hd c hc

theorem integral_points {B : Body} {w0 omega : Nat → ℝ} {piola : Nat → M9} {bonds : List Bond} (ps : List Nat)
    {S S' : Nat → M9} (h : ps.foldlM (fun S p => do
      let t ← (bondsAt bonds p).foldlM (integralBond B w0 omega piola) zero
      .ok (Function.update S p t)) S = .ok S') :
    ∀ p, (p ∈ ps → (S' p).toMatrix = ((bondsAt bonds p).map (share B w0 omega piola)).sum ∧
      ∀ b ∈ bondsAt bonds p, 0 < omega b.b → w0 b.i ≠ 0 ∧ w0 b.j ≠ 0 ∧ lenSq (xi B b) ≠ 0) ∧
      (p ∉ ps → S' p = S p) := by
  induction ps generalizing S with
  | nil => cases h; exact fun p => ⟨fun hp => (by cases hp), fun _ => rfl⟩
  | cons q ps ih =>
    rw [List.foldlM_cons] at h
    obtain ⟨S1, h1, h2⟩ := Outcome.bind_eq_ok.mp h
    obtain ⟨t, h3, h4⟩ := Outcome.bind_eq_ok.mp h1
    cases h4
    have hi := ih h2
    obtain ⟨e, hd⟩ := integral_fold _ h3
    intro p
    refine ⟨fun hp => ?_, fun hp => ?_⟩
    · by_cases hps : p ∈ ps
      · exact (hi p).1 hps
      · have hpq : p = q := (List.mem_cons.mp hp).resolve_right hps
        subst hpq
        rw [(hi p).2 hps, Function.update_self, e, toMatrix_zero, zero_add]
        exact ⟨rfl, hd⟩
    · rw [List.mem_cons, not_or] at hp
      rw [(hi p).2 hp.2, Function.update_of_ne hp.1]

/-- The force of a bond. -/
def pairForce (B : Body) (w0 : Nat → ℝ) (w : Weights) (piola S : Nat → M9) (b : Bond) : V3 :=
  if 0 < w.omega b.b then
    (w.omega b.b / w0 b.i / lenSq (xi B b)) • ((piola b.b).toMatrix *ᵥ xi B b) + (S b.i).toMatrix *ᵥ w.phi b.b
  else 0

theorem forceBond_ok {B : Body} {w0 : Nat → ℝ} {w : Weights} {piola S : Nat → M9} {b : Bond} {g : V3}
    (h : forceBond B w0 w piola S b = .ok g) :
    g = pairForce B w0 w piola S b ∧ (0 < w.omega b.b → w0 b.i ≠ 0 ∧ lenSq (xi B b) ≠ 0) := by
  unfold forceBond at h
  split at h
  · next ho =>
    split at h
    · cases h
    · next hz =>
      push Not at hz
      cases h
      refine ⟨?_, fun _ => hz⟩
      rw [pairForce, if_pos ho]
      funext c
      fin_cases c <;>
        simp [M9.toMatrix, mulVec, dotProduct, Fin.sum_univ_three] <;> ring
  · next ho =>
    cases h
    exact ⟨by rw [pairForce, if_neg ho], fun h => absurd h ho⟩

/-- A scattered force in closed form. -/
theorem scattered_sum {W : Type} [AddCommGroup W] [Module ℝ W] {vi vj : Bond → ℝ} {T : Bond → V3} {bs : List Bond}
    {R : Nat → V3} (N : Nat) (L : Nat → V3 →ₗ[ℝ] W) (h : Scattered vi vj (fun b g => g = T b) bs 0 R)
    (hN : ∀ b ∈ bs, b.i < N ∧ b.j < N) :
    ∑ k ∈ Finset.range N, L k (R k) = (bs.map fun b => vj b • L b.i (T b) - vi b • L b.j (T b)).sum := by
  obtain ⟨gs, h1, h2, h3⟩ := h
  have key : ∀ (gs : List (Bond × V3)), (∀ x ∈ gs, x.2 = T x.1) → (∀ x ∈ gs, x.1.i < N ∧ x.1.j < N) →
      ∑ k ∈ Finset.range N, L k ((gs.map (pull vi vj k)).sum) =
        ((gs.map Prod.fst).map fun b => vj b • L b.i (T b) - vi b • L b.j (T b)).sum := by
    intro gs
    induction gs with
    | nil => intro _ _; simp
    | cons x gs ih =>
      intro hx hb
      rw [List.map_cons, List.map_cons, List.sum_cons, ← ih (fun y hy => hx y (List.mem_cons_of_mem _ hy))
        fun y hy => hb y (List.mem_cons_of_mem _ hy)]
      simp only [List.map_cons, List.sum_cons, map_add, Finset.sum_add_distrib]
      congr 1
      have hx1 := hx x List.mem_cons_self
      obtain ⟨hi, hj⟩ := hb x List.mem_cons_self
      simp only [pull, map_sub, Finset.sum_sub_distrib]
      congr 1
      · rw [Finset.sum_eq_single x.1.i]
        · rw [if_pos rfl, map_smul, hx1]
        · intro k _ hk; rw [if_neg (Ne.symm hk), map_zero]
        · intro hc; exact absurd (Finset.mem_range.mpr hi) hc
      · rw [Finset.sum_eq_single x.1.j]
        · rw [if_pos rfl, map_smul, hx1]
        · intro k _ hk; rw [if_neg (Ne.symm hk), map_zero]
        · intro hc; exact absurd (Finset.mem_range.mpr hj) hc
  have := key gs h2 (fun x hx => hN x.1 (h1 ▸ List.mem_map_of_mem hx))
  rw [← h1, ← this]
  refine Finset.sum_congr rfl fun k _ => ?_
  rw [h3 k, Pi.zero_apply, zero_add]

end Verif.Assoc
