import Verif.Correspondence.RotProps
import Mathlib.LinearAlgebra.Matrix.ToLinearEquiv
import Mathlib.Tactic.LinearCombination

/-!
# Correspondence materials: the left stretch tensor (C86)
-/

noncomputable section

namespace Verif.Correspondence

open Verif Verif.Neigh Verif.Mech Verif.Tensor Matrix
open scoped Classical

/-- Stretches every vector: symmetric with positive quadratic form. -/
def IsStretch (V : Mat) : Prop := Vᵀ = V ∧ ∀ a : V3, a ≠ 0 → 0 < a ⬝ᵥ V *ᵥ a

theorem traceMinus_eq (V : M9) : (traceMinus V).toMatrix = V.toMatrix.trace • (1 : Mat) - V.toMatrix := by
  ext i j
  rw [trace_fin_three]
  fin_cases i <;> fin_cases j <;> simp [traceMinus, M9.toMatrix]

/-- The quadratic form of `trace(V) I - V`. -/
theorem traceMinus_form (V : Mat) (a : V3) :
    a ⬝ᵥ (V.trace • (1 : Mat) - V) *ᵥ a = ![0, a 2, -a 1] ⬝ᵥ V *ᵥ ![0, a 2, -a 1] +
      ![-a 2, 0, a 0] ⬝ᵥ V *ᵥ ![-a 2, 0, a 0] + ![a 1, -a 0, 0] ⬝ᵥ V *ᵥ ![a 1, -a 0, 0] := by
  simp only [dotProduct, mulVec, Fin.sum_univ_three, trace_fin_three, Matrix.sub_apply,
    Matrix.smul_apply, cons_val_zero, cons_val_one, vec_two, smul_eq_mul]
  simp
  ring

theorem traceMinus_det {V : M9} (h : ∀ a : V3, a ≠ 0 → 0 < a ⬝ᵥ V.toMatrix *ᵥ a) :
    determinant (traceMinus V) ≠ 0 := by
  rw [determinant_eq, traceMinus_eq]
  intro hd
  obtain ⟨a, ha, he⟩ := exists_mulVec_eq_zero_iff.mpr hd
  have hz : a ⬝ᵥ (V.toMatrix.trace • (1 : Mat) - V.toMatrix) *ᵥ a = 0 := by rw [he, dotProduct_zero]
  rw [traceMinus_form] at hz
  have nn : ∀ b : V3, 0 ≤ b ⬝ᵥ V.toMatrix *ᵥ b := by
    intro b
    by_cases hb : b = 0
    · rw [hb]; simp
    · exact (h b hb).le
  have z : ∀ b : V3, b ⬝ᵥ V.toMatrix *ᵥ b = 0 → b = 0 := by
    intro b hb
    by_contra hc
    exact (h b hc).ne' hb
  have n1 := nn ![0, a 2, -a 1]
  have n2 := nn ![-a 2, 0, a 0]
  have n3 := nn ![a 1, -a 0, 0]
  have e1 := z ![0, a 2, -a 1] (by linarith)
  have e2 := z ![-a 2, 0, a 0] (by linarith)
  apply ha
  have k1 := congrFun e1 1
  have k2 := congrFun e1 2
  have k3 := congrFun e2 2
  simp [vec_two] at k1 k2 k3
  funext i
  fin_cases i
  · exact k3
  · exact k2
  · exact k1

theorem newStretch_eq (dt : ℝ) (L V : M9) : (newStretch dt L V).toMatrix = V.toMatrix + dt •
    (L.toMatrix * V.toMatrix - V.toMatrix * axial (angularVelocity L V)) := by
  unfold newStretch
  have h1 : ∀ (a b : M9) (c : ℝ), (addScaled a c b).toMatrix = a.toMatrix + c • b.toMatrix := by
    intro a b c
    ext i j
    fin_cases i <;> fin_cases j <;> simp [addScaled, M9.toMatrix]
  have h2 : ∀ a b : M9, (sub9 a b).toMatrix = a.toMatrix - b.toMatrix := by
    intro a b
    ext i j
    fin_cases i <;> fin_cases j <;> simp [sub9, M9.toMatrix]
  rw [h1, h2, toMatrix_mm, toMatrix_mm, omegaTensor_eq]

/-- The angular velocity is the one that keeps the stretch symmetric. -/
theorem rate_symmetric (L V : M9) (hs : V.toMatrixᵀ = V.toMatrix)
    (hd : determinant (traceMinus V) ≠ 0) :
    (L.toMatrix * V.toMatrix - V.toMatrix * axial (angularVelocity L V))ᵀ =
      L.toMatrix * V.toMatrix - V.toMatrix * axial (angularVelocity L V) := by
  have s1 : V.yx = V.xy := congrFun (congrFun hs 0) 1
  have s2 : V.zx = V.xz := congrFun (congrFun hs 0) 2
  have s3 : V.zy = V.yz := congrFun (congrFun hs 1) 2
  -- (trace(V) I - V) (omega - w) = z
  have key : (traceMinus V).toMatrix *ᵥ (angularVelocity L V - wVector (spin L)) =
      zVector V (rateOfDeformation L) := by
    have e : angularVelocity L V - wVector (spin L) =
        (invert3 (traceMinus V)).2.toMatrix *ᵥ zVector V (rateOfDeformation L) := by
      funext i
      unfold angularVelocity omegaVector
      fin_cases i <;>
        simp [mulVec, dotProduct, Fin.sum_univ_three, M9.toMatrix, vec_two] <;> ring
    rw [e, mulVec_mulVec, product_invert3 hd, one_mulVec]
  generalize angularVelocity L V = o at key ⊢
  have k0 := congrFun key 0
  have k1 := congrFun key 1
  have k2 := congrFun key 2
  simp only [mulVec, dotProduct, Fin.sum_univ_three, traceMinus, M9.toMatrix, zVector, wVector, spin,
    rateOfDeformation, Pi.sub_apply, of_apply, cons_val', cons_val_zero, cons_val_one, vec_two,
    cons_val_fin_one, cons_val] at k0 k1 k2
  simp only [s1, s2, s3] at k0 k1 k2
  norm_num at k0 k1 k2
  ext i j
  fin_cases i <;> fin_cases j <;>
    simp [M9.toMatrix, axial, Matrix.mul_apply, Fin.sum_univ_three, s1, s2, s3]
  · linear_combination -k2
  · linear_combination k1
  · linear_combination k2
  · linear_combination -k0
  · linear_combination -k1
  · linear_combination k0

/-- **C86**: in one evaluation the left stretch of a point with a proper stretch is advanced with the
rate `G V - V W`, where `G` is the velocity gradient of its neighbors and `W` the skew tensor that keeps
the stretch symmetric. -/
theorem C86_step (B : Body) (M : Material) (dt : ℝ) (y v : Nat → V3) (s : State) (old : Stale)
    (nbs : List (List Nat)) (r : Result)
    (h : computeForce B M dt y v s old nbs.length (encode nbs) = .ok r) (p : Nat) (ns : List Nat)
    (hp : nbs[p]? = some ns) (G : Mat) (hG : FlowingBy y v p ns G)
    (hV : IsStretch (s.stretch p).toMatrix) :
    ∃ o : V3, (r.kinematics.stretch p).toMatrix = (s.stretch p).toMatrix + dt •
        (G * (s.stretch p).toMatrix - (s.stretch p).toMatrix * axial o) ∧
      (r.kinematics.stretch p).toMatrixᵀ = (r.kinematics.stretch p).toMatrix := by
  obtain ⟨hlt, _⟩ := List.getElem?_eq_some_iff.1 hp
  obtain ⟨h1, _, _⟩ := rotation_at h hlt
  refine ⟨angularVelocity (gradientAt B v nbs r p) (s.stretch p), ?_, ?_⟩
  · rw [h1, newStretch_eq, gradient_flow h hp hG]
  · rw [h1, newStretch_eq, transpose_add, transpose_smul,
      rate_symmetric _ _ hV.1 (traceMinus_det hV.2), hV.1]

theorem virgin_stretch (p : Nat) : IsStretch (virgin.stretch p).toMatrix := by
  show IsStretch identity.toMatrix
  rw [toMatrix_identity]
  refine ⟨transpose_one, fun a ha => ?_⟩
  rw [one_mulVec]
  rcases (dot_self_nonneg a).lt_or_eq with h | h
  · exact h
  · exact absurd (dotProduct_self_eq_zero.mp h.symm) ha

example : ∃ r, computeForce cornerBody idle 1 (stretched 2) (spinning (stretched 2)) virgin blank
    cornerList.length (encode cornerList) = .ok r ∧ IsStretch (virgin.stretch 0).toMatrix ∧
    FlowingBy (stretched 2) (spinning (stretched 2)) 0 [1, 2, 3] (axial ![0, 0, 1]) := by
  obtain ⟨r, h⟩ := corner_defined 1 2 two_ne_zero (spinning (stretched 2)) virgin
  exact ⟨r, h, virgin_stretch 0, spinning_flow _ _ _⟩

/-- **C86**, runs: as long as the stretch of a point is positive, it is symmetric. -/
theorem C86_run (B : Body) (M : Material) (nbs : List (List Nat)) (s0 s : State) (hist : List Result)
    (h : Run B M nbs s0 s hist) (p : Nat) (hp : p < nbs.length) (h0 : IsStretch (s0.stretch p).toMatrix)
    (hpos : ∀ r ∈ hist, ∀ a : V3, a ≠ 0 → 0 < a ⬝ᵥ (r.kinematics.stretch p).toMatrix *ᵥ a) :
    IsStretch (s.stretch p).toMatrix := by
  induction h with
  | start => exact h0
  | step dt y v old hr hc ih =>
    rename_i s hist r
    have hV := ih fun r hr => hpos r (List.mem_cons_of_mem _ hr)
    obtain ⟨h1, _, _⟩ := rotation_at hc hp
    refine ⟨?_, hpos r (List.mem_cons_self ..)⟩
    show (r.kinematics.stretch p).toMatrixᵀ = (r.kinematics.stretch p).toMatrix
    rw [h1, newStretch_eq, transpose_add, transpose_smul,
      rate_symmetric _ _ hV.1 (traceMinus_det hV.2), hV.1]

/-- **C86**, rigid motion: a body that moves rigidly from the unstretched state stays unstretched. -/
theorem C86_rigid (B : Body) (M : Material) (dt : ℝ) (y v : Nat → V3) (s : State) (old : Stale)
    (nbs : List (List Nat)) (r : Result)
    (h : computeForce B M dt y v s old nbs.length (encode nbs) = .ok r) (c : V3) (w : V3)
    (hv : ∀ k, v k = c + crossProduct w (y k)) (p : Nat) (hp : p < nbs.length)
    (h1 : (s.stretch p).toMatrix = 1) : (r.kinematics.stretch p).toMatrix = 1 := by
  have hf : FlowingBy y v p nbs[p] (axial w) := by
    intro j _
    rw [hv, hv]
    funext k
    fin_cases k <;>
      simp [crossProduct, axial, mulVec, dotProduct, Fin.sum_univ_three, vec_two] <;> ring
  have hst : IsStretch (s.stretch p).toMatrix := by
    have := virgin_stretch p
    rw [h1]
    rwa [show (virgin.stretch p).toMatrix = 1 from toMatrix_identity] at this
  obtain ⟨o, e1, e2⟩ := C86_step B M dt y v s old nbs r h p _ (List.getElem?_eq_getElem hp) _ hf hst
  rw [h1, Matrix.mul_one, Matrix.one_mul] at e1
  rw [e1, transpose_add, transpose_one, transpose_smul, transpose_sub, axial_transpose,
    axial_transpose] at e2
  have e3 : dt • (axial w - axial o) = 0 := by
    have := add_left_cancel e2
    have h2 : (2 : ℝ) • (dt • (axial w - axial o)) = 0 := by
      rw [two_smul]
      nth_rewrite 1 [← this]
      rw [← smul_add]
      simp
    exact (smul_eq_zero.mp h2).resolve_left two_ne_zero
  rw [e1, e3, add_zero]

example : ∃ r, computeForce cornerBody idle 1 (stretched 2)
    (fun k => ![1, 0, 0] + crossProduct ![0, 0, 1] (stretched 2 k)) virgin blank
    cornerList.length (encode cornerList) = .ok r ∧ (r.kinematics.stretch 0).toMatrix = 1 := by
  obtain ⟨r, h⟩ := corner_defined 1 2 two_ne_zero
    (fun k => ![1, 0, 0] + crossProduct ![0, 0, 1] (stretched 2 k)) virgin
  exact ⟨r, h, C86_rigid _ _ _ _ _ _ _ _ _ h _ _ (fun _ => rfl) 0 (by decide) toMatrix_identity⟩

example : ∃ s hist, Run cornerBody idle cornerList virgin s hist ∧ hist.length = 1 ∧
    ∀ r ∈ hist, ∀ a : V3, a ≠ 0 → 0 < a ⬝ᵥ (r.kinematics.stretch 0).toMatrix *ᵥ a := by
  obtain ⟨r, h⟩ := corner_defined 1 2 two_ne_zero
    (fun k => ![1, 0, 0] + crossProduct ![0, 0, 1] (stretched 2 k)) virgin
  refine ⟨_, _, .step 1 _ _ blank .start h, rfl, ?_⟩
  intro r' hr'
  simp only [List.mem_singleton] at hr'
  subst hr'
  rw [C86_rigid _ _ _ _ _ _ _ _ _ h _ _ (fun _ => rfl) 0 (by decide) toMatrix_identity]
  have := (virgin_stretch 0).2
  rwa [show (virgin.stretch 0).toMatrix = 1 from toMatrix_identity] at this

end Verif.Correspondence
