import Verif.Correspondence.StartSpec
import Verif.Correspondence.StressProps
import Verif.Correspondence.StretchProps

/-! Lemmas for C210, C211 and C212. -/

noncomputable section

namespace Verif.Correspondence

open Verif Verif.Neigh Verif.Mech Verif.Tensor Matrix
open scoped Classical

theorem along_mul {Q : Mat} (hQ : Qᵀ * Q = 1) (a b : V3) :
    along Q a * along Q b = along Q (fun i => a i * b i) := by
  unfold along
  calc Q * diagonal a * Qᵀ * (Q * diagonal b * Qᵀ)
      = Q * diagonal a * (Qᵀ * Q) * diagonal b * Qᵀ := by simp only [Matrix.mul_assoc]
    _ = _ := by rw [hQ, Matrix.mul_one, Matrix.mul_assoc Q, diagonal_mul_diagonal]

theorem along_one {Q : Mat} (hQ : Qᵀ * Q = 1) : along Q (fun _ => 1) = 1 := by
  unfold along
  rw [diagonal_one, Matrix.mul_one]
  exact mul_eq_one_comm.mp hQ

theorem along_add (Q : Mat) (a b : V3) : along Q a + along Q b = along Q (fun i => a i + b i) := by
  unfold along
  rw [← Matrix.add_mul, ← Matrix.mul_add, diagonal_add]

theorem along_sub (Q : Mat) (a b : V3) : along Q a - along Q b = along Q (fun i => a i - b i) := by
  unfold along
  rw [← Matrix.sub_mul, ← Matrix.mul_sub, diagonal_sub]

theorem along_smul (Q : Mat) (c : ℝ) (a : V3) : c • along Q a = along Q (fun i => c * a i) := by
  unfold along
  rw [← Matrix.smul_mul, ← Matrix.mul_smul, ← diagonal_smul]
  rfl

theorem along_transpose (Q : Mat) (a : V3) : (along Q a)ᵀ = along Q a := by
  unfold along
  rw [transpose_mul, transpose_mul, transpose_transpose, diagonal_transpose, Matrix.mul_assoc]

theorem along_trace {Q : Mat} (hQ : Qᵀ * Q = 1) (a : V3) : (along Q a).trace = a 0 + a 1 + a 2 := by
  unfold along
  rw [trace_mul_comm, ← Matrix.mul_assoc, hQ, Matrix.one_mul]
  simp [trace, Fin.sum_univ_three]

theorem along_zero (Q : Mat) : along Q 0 = 0 := by
  have h : (diagonal (0 : V3) : Mat) = 0 := diagonal_zero
  unfold along
  rw [h]
  simp

/-- Without spin, and with stretch and rate of deformation along the same axes, nothing turns. -/
theorem angularVelocity_zero {L V : M9} (h1 : L.toMatrixᵀ = L.toMatrix)
    (h2 : (L.toMatrix * V.toMatrix)ᵀ = L.toMatrix * V.toMatrix) : angularVelocity L V = 0 := by
  have s1 : L.yx = L.xy := congrFun (congrFun h1 0) 1
  have s2 : L.zx = L.xz := congrFun (congrFun h1 0) 2
  have s3 : L.zy = L.yz := congrFun (congrFun h1 1) 2
  have t1 := congrFun (congrFun h2 0) 1
  have t2 := congrFun (congrFun h2 0) 2
  have t3 := congrFun (congrFun h2 1) 2
  simp [M9.toMatrix, Matrix.mul_apply, Fin.sum_univ_three] at t1 t2 t3
  rw [s1] at t1 t3
  rw [s2] at t2 t3
  rw [s3] at t2 t3
  have hw : wVector (spin L) = 0 := by
    funext c
    fin_cases c <;> simp [wVector, spin, s1, s2, s3, vec_two]
  have hz : zVector V (rateOfDeformation L) = 0 := by
    have e1 : (0.5 : ℝ) * (L.xy + L.xy) = L.xy := by norm_num; ring
    have e2 : (0.5 : ℝ) * (L.xz + L.xz) = L.xz := by norm_num; ring
    have e3 : (0.5 : ℝ) * (L.yz + L.yz) = L.yz := by norm_num; ring
    funext c
    fin_cases c
    · show -V.xz * (rateOfDeformation L).yx - V.yz * (rateOfDeformation L).yy -
        V.zz * (rateOfDeformation L).yz + V.xy * (rateOfDeformation L).zx +
        V.yy * (rateOfDeformation L).zy + V.zy * (rateOfDeformation L).zz = 0
      simp only [rateOfDeformation, s1, s2, s3, e1, e2, e3]
      linear_combination t3
    · show V.xz * (rateOfDeformation L).xx + V.yz * (rateOfDeformation L).xy +
        V.zz * (rateOfDeformation L).xz - V.xx * (rateOfDeformation L).zx -
        V.yx * (rateOfDeformation L).zy - V.zx * (rateOfDeformation L).zz = 0
      simp only [rateOfDeformation, s1, s2, s3, e1, e2, e3]
      linear_combination -t2
    · show -V.xy * (rateOfDeformation L).xx - V.yy * (rateOfDeformation L).xy -
        V.zy * (rateOfDeformation L).xz + V.xx * (rateOfDeformation L).yx +
        V.yx * (rateOfDeformation L).yy + V.zx * (rateOfDeformation L).yz = 0
      simp only [rateOfDeformation, s1, s2, s3, e1, e2, e3]
      linear_combination t1
  unfold angularVelocity
  rw [hw, hz]
  funext c
  fin_cases c <;> simp [omegaVector, vec_two]

theorem qMatrix_zero (dt : ℝ) : qMatrix dt 0 = identity := by
  unfold qMatrix
  rw [if_neg]
  simp [omegaSq]

theorem axial_zero : axial 0 = 0 := by
  ext i j
  fin_cases i <;> fin_cases j <;> simp [axial]

/-- The elastic stress update without thermal strains is Hooke's law for the strain increment. -/
theorem elasticPoint_eq (bulk shear dt : ℝ) (D s : M9) :
    (elasticPoint bulk shear dt none D s).toMatrix = s.toMatrix + hooke bulk shear (dt • D.toMatrix) := by
  unfold elasticPoint
  simp only
  rw [elasticStress_eq, hooke_eq, diagSum_eq, toMatrix_scaled]
  module

/-- One evaluation of the elastic material at a point that does not turn. -/
theorem elastic_step {B : Body} {bulk shear hc dt : ℝ} {y v : Nat → V3} {s : State} {old : Stale}
    {nbs : List (List Nat)} {r : Result}
    (h : computeForce B (elasticMaterial bulk shear hc) dt y v s old nbs.length (encode nbs) = .ok r)
    {p : Nat} {ns : List Nat} (hp : nbs[p]? = some ns) {G : Mat} (hG : FlowingBy y v p ns G)
    (hs : Gᵀ = G) (hV : (G * (s.stretch p).toMatrix)ᵀ = G * (s.stretch p).toMatrix)
    (hR : s.rotation p = identity) :
    (r.kinematics.stretch p).toMatrix = (s.stretch p).toMatrix + dt • (G * (s.stretch p).toMatrix) ∧
    r.kinematics.rotation p = identity ∧
    (r.stress p).toMatrix = (s.stress p).toMatrix + hooke bulk shear (dt • G) ∧
    r.cauchy p = r.stress p := by
  obtain ⟨hlt, _⟩ := List.getElem?_eq_some_iff.1 hp
  have hL := gradient_flow h hp hG
  obtain ⟨h1, h2, h3⟩ := rotation_at h hlt
  have ho : angularVelocity (gradientAt B v nbs r p) (s.stretch p) = 0 :=
    angularVelocity_zero (by rw [hL]; exact hs) (by rw [hL]; exact hV)
  have hrot : r.kinematics.rotation p = identity := by
    rw [h2]
    apply toMatrix_injective
    rw [newRotation_eq, ho, qMatrix_zero, hR, toMatrix_identity, Matrix.mul_one]
  obtain ⟨_, _, _, _, h5, h6, _⟩ := computeForce_ok h
  have hst : r.stress p = elasticPoint bulk shear dt none (r.kinematics.rate p) (s.stress p) := by
    have := BC.ok_inj h5
    rw [← this]
  refine ⟨?_, hrot, ?_, ?_⟩
  · rw [h1, newStretch_eq, hL, ho, axial_zero, Matrix.mul_zero, sub_zero]
  · rw [hst, elasticPoint_eq, h3, unrotated_eq, hrot, hL, hs, toMatrix_identity]
    congr 3
    rw [transpose_one, Matrix.one_mul, Matrix.mul_one, ← two_smul ℝ G, smul_smul]
    norm_num
  · rw [h6, hrot]
    apply toMatrix_injective
    unfold rotateStress
    rw [toMatrix_mm, toMatrix_mmT, toMatrix_identity]
    simp

/-- The velocities of a stretching step. -/
theorem stretch_flow {B : Body} {Q : Mat} (hQ : Qᵀ * Q = 1) {dt : ℝ} (hdt : dt ≠ 0) {l l' c c' : V3}
    (hl : ∀ i, l' i ≠ 0) {y v : Nat → V3} (hy : ∀ k, y k = c' + along Q l' *ᵥ B.x k)
    (hv : ∀ k, dt • v k = y k - (c + along Q l *ᵥ B.x k)) (p : Nat) (ns : List Nat) :
    FlowingBy y v p ns (along Q fun i => dt⁻¹ * ((l' i - l i) / l' i)) := by
  intro j _
  have e1 : y j - y p = along Q l' *ᵥ (B.x j - B.x p) := by
    rw [hy, hy, mulVec_sub]
    abel
  have e2 : v j - v p = dt⁻¹ • ((along Q l' - along Q l) *ᵥ (B.x j - B.x p)) := by
    have a1 : v j = dt⁻¹ • (dt • v j) := by rw [smul_smul, inv_mul_cancel₀ hdt, one_smul]
    have a2 : v p = dt⁻¹ • (dt • v p) := by rw [smul_smul, inv_mul_cancel₀ hdt, one_smul]
    rw [a1, a2, ← smul_sub, hv, hv, sub_mulVec, mulVec_sub, mulVec_sub, hy, hy]
    congr 1
    abel
  rw [e1, e2, mulVec_mulVec, along_mul hQ, along_sub, ← smul_mulVec, along_smul]
  congr 2
  funext i
  field_simp [hl i]

/-- The state of a point after a stretching run. -/
theorem stretch_state {B : Body} {bulk shear hc : ℝ} {nbs : List (List Nat)} {Q : Mat} {s0 s : State}
    {l0 : V3} {path : List V3} {hist : List Result} (hQ : Qᵀ * Q = 1)
    (hrun : StretchRun B (elasticMaterial bulk shear hc) nbs Q s0 l0 s path hist)
    (hpos : ∀ l ∈ path, ∀ i, 0 < l i) {p : Nat} (hp : p < nbs.length)
    (hV : s0.stretch p = identity) (hR : s0.rotation p = identity) (hS : s0.stress p = zero) :
    (∃ nu : V3, (s.stretch p).toMatrix = along Q nu) ∧ s.rotation p = identity ∧
    (s.stress p).toMatrix = hooke bulk shear (along Q (increments path)) ∧
    ∀ r ∈ hist.head?, r.cauchy p = r.stress p ∧ r.stress p = s.stress p := by
  induction hrun with
  | start =>
    refine ⟨⟨fun _ => 1, ?_⟩, hR, ?_, fun r hr => absurd hr (by simp)⟩
    · rw [hV, toMatrix_identity, along_one hQ]
    · rw [hS, toMatrix_zero, increments, along_zero]
      · simp [hooke]
      · intro l' l path
        simp
  | step dt l' c c' y v old hr hdt hy hv hok ih =>
    rename_i s path hist r l
    obtain ⟨⟨nu, i1⟩, i2, i3, _⟩ := ih fun l hl => hpos l (List.mem_cons_of_mem _ hl)
    have hne : ∀ i, l' i ≠ 0 := fun i => (hpos l' List.mem_cons_self i).ne'
    have hflow := stretch_flow hQ hdt hne hy hv p nbs[p]
    obtain ⟨e1, e2, e3, e4⟩ := elastic_step hok (List.getElem?_eq_getElem hp) hflow
      (along_transpose _ _) (by rw [i1, along_mul hQ, along_transpose]) i2
    refine ⟨⟨fun i => nu i + (l' i - l i) / l' i * nu i, ?_⟩, e2, ?_, ?_⟩
    · show (r.kinematics.stretch p).toMatrix = _
      rw [e1, i1, along_mul hQ, along_smul, along_add]
      congr 1
      funext i
      field_simp
    · show (r.stress p).toMatrix = _
      rw [e3, i3, ← hooke_add, along_smul, along_add]
      congr 2
      funext i
      rw [increments]
      field_simp
      ring
    · intro r' hr'
      simp only [List.head?_cons, Option.mem_def, Option.some.injEq] at hr'
      subst hr'
      exact ⟨e4, rfl⟩

/-! ### Increments and logarithms -/

theorem step_le {a b : ℝ} (ha : 0 < a) (hb : 0 < b) : (a - b) / a ≤ Real.log a - Real.log b := by
  have h := Real.log_le_sub_one_of_pos (div_pos hb ha)
  rw [Real.log_div hb.ne' ha.ne'] at h
  have e : (a - b) / a = 1 - b / a := by field_simp
  rw [e]
  linarith

theorem step_lt {a b : ℝ} (ha : 0 < a) (hb : 0 < b) (hab : a ≠ b) :
    (a - b) / a < Real.log a - Real.log b := by
  have h := Real.log_lt_sub_one_of_pos (div_pos hb ha) (by
    intro h
    rw [div_eq_one_iff_eq ha.ne'] at h
    exact hab h.symm)
  rw [Real.log_div hb.ne' ha.ne'] at h
  have e : (a - b) / a = 1 - b / a := by field_simp
  rw [e]
  linarith

theorem step_ge {a b : ℝ} (ha : 0 < a) (hb : 0 < b) :
    Real.log a - Real.log b ≤ (a - b) / a + (a - b) ^ 2 / (a * b) := by
  have h := Real.log_le_sub_one_of_pos (div_pos ha hb)
  rw [Real.log_div ha.ne' hb.ne'] at h
  have e : (a - b) / a + (a - b) ^ 2 / (a * b) = a / b - 1 := by
    field_simp
    ring
  rw [e]
  exact h

theorem run_last {B : Body} {M : Material} {nbs : List (List Nat)} {Q : Mat} {s0 s : State}
    {l0 : V3} {path : List V3} {hist : List Result} (hrun : StretchRun B M nbs Q s0 l0 s path hist) :
    path.getLast? = some l0 := by
  induction hrun with
  | start => rfl
  | step dt l' c c' y v old hr hdt hy hv hok ih =>
    rw [List.getLast?_cons_cons]
    exact ih

theorem increments_bounds (l : V3) (path : List V3) (l0 : V3) (hlast : (l :: path).getLast? = some l0)
    (hpos : ∀ m ∈ l :: path, ∀ i, 0 < m i) (i : Fin 3) :
    increments (l :: path) i ≤ Real.log (l i) - Real.log (l0 i) ∧
    Real.log (l i) - Real.log (l0 i) ≤ increments (l :: path) i + coarseness (l :: path) i ∧
    ((∃ m ∈ l :: path, m i ≠ l0 i) →
      increments (l :: path) i < Real.log (l i) - Real.log (l0 i)) := by
  induction path generalizing l with
  | nil =>
    simp only [List.getLast?_singleton, Option.some.injEq] at hlast
    subst hlast
    refine ⟨by simp [increments], by simp [increments, coarseness], ?_⟩
    rintro ⟨m, hm, hne⟩
    simp only [List.mem_singleton] at hm
    exact absurd (congrFun hm i) hne
  | cons b path ih =>
    rw [List.getLast?_cons_cons] at hlast
    obtain ⟨h1, h2, h3⟩ := ih b hlast fun m hm => hpos m (List.mem_cons_of_mem _ hm)
    have pa := hpos l List.mem_cons_self i
    have pb := hpos b (List.mem_cons_of_mem _ List.mem_cons_self) i
    have s1 := step_le pa pb
    have s2 := step_ge pa pb
    simp only [increments, coarseness]
    refine ⟨by linarith, by linarith, ?_⟩
    rintro ⟨m, hm, hne⟩
    by_cases hlb : l i = b i
    · have : ∃ m ∈ b :: path, m i ≠ l0 i := by
        rcases List.mem_cons.mp hm with rfl | hm
        · exact ⟨b, List.mem_cons_self, by rwa [← hlb]⟩
        · exact ⟨m, hm, hne⟩
      linarith [h3 this]
    · linarith [step_lt pa pb hlb]

theorem hooke_trace (bulk shear : ℝ) (e : Mat) : (hooke bulk shear e).trace = 3 * bulk * e.trace := by
  unfold hooke
  rw [trace_add, trace_smul, trace_smul_one, smul_eq_mul]
  ring

theorem initialState_ok {B : Body} {x : Nat → V3} {nbs : List (List Nat)} {old : Shape} {s : State}
    (h : initialState B x nbs.length (encode nbs) old = .ok s) :
    s = ⟨fun _ => identity, fun _ => identity, fun _ => zero⟩ := by
  unfold initialState at h
  rw [visited_encode] at h
  simp only [Outcome.ok_bind] at h
  split at h
  · exact absurd h (by simp)
  · exact (Outcome.ok.inj h).symm

theorem begin_ok {B : Body} {d : (Nat → V3) → Nat → V3} {nbs : List (List Nat)} {old : Shape} {s : State}
    {y : Nat → V3} (h : begin B d nbs.length (encode nbs) old = .ok (s, y)) :
    s = ⟨fun _ => identity, fun _ => identity, fun _ => zero⟩ ∧ y = d B.x := by
  unfold begin at h
  simp only at h
  obtain ⟨s', h1, h2⟩ := Outcome.bind_eq_ok.mp h
  have e := initialState_ok h1
  have := Outcome.ok.inj h2
  simp only [Prod.mk.injEq] at this
  exact ⟨by rw [← this.1, e], this.2.symm⟩

end Verif.Correspondence
