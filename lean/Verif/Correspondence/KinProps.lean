import Verif.Correspondence.Defined

/-!
# Correspondence materials: deformation gradient and hourglass forces (C74, C75)
-/

noncomputable section

namespace Verif.Correspondence

open Verif Verif.Neigh Verif.Mech Verif.Tensor Matrix
open scoped Classical

/-- **C74**: where the neighbors of a point have moved according to one matrix, the deformation
gradient is that matrix, whatever the influence function, volumes and arrangement of the neighbors. -/
theorem C74_affine (B : Body) (M : Material) (dt : ℝ) (y v : Nat → V3) (s : State) (old : Stale)
    (nbs : List (List Nat)) (r : Result)
    (h : computeForce B M dt y v s old nbs.length (encode nbs) = .ok r) (p : Nat) (ns : List Nat)
    (hp : nbs[p]? = some ns) (A : Mat) (hA : MovedBy B y p ns A) : (r.shape.grad p).toMatrix = A := by
  obtain ⟨hlt, _⟩ := List.getElem?_eq_some_iff.1 hp
  obtain ⟨h1, h2, h3⟩ := grad_at h hlt
  have e := firstTerm_map B y B.x (bondsAt (bondsOf nbs) p) A fun b hb => by
    obtain ⟨e1, e2⟩ := bondsAt_range hp hb
    rw [e1]; exact hA b.j e2
  rw [firstTerm_reference] at e
  rw [e] at h1
  have := congrArg (· * (r.shape.inv p).toMatrix) h1
  simpa only [Matrix.mul_assoc, h2, Matrix.mul_one] using this

example : ∃ r, computeForce cornerBody idle 1 (stretched 2) 0 virgin blank cornerList.length
    (encode cornerList) = .ok r ∧ MovedBy cornerBody (stretched 2) 0 [1, 2, 3] ((2 : ℝ) • 1) ∧
    (r.shape.grad 0).toMatrix = (2 : ℝ) • 1 := by
  obtain ⟨r, h⟩ := corner_defined 1 2 two_ne_zero 0 virgin
  have hm : MovedBy cornerBody (stretched 2) 0 [1, 2, 3] ((2 : ℝ) • 1) := by
    intro j _
    rw [smul_mulVec, one_mulVec]
    show (2 : ℝ) • cornerBody.x j - (2 : ℝ) • cornerBody.x 0 = _
    rw [smul_sub]
  exact ⟨r, h, hm, C74_affine _ _ _ _ _ _ _ _ _ h 0 _ rfl _ hm⟩

/-- **C74**, singular shape tensors: if the shape tensor of any point is not invertible the analysis
ends with an error. -/
theorem C74_singular (B : Body) (M : Material) (dt : ℝ) (y v : Nat → V3) (s : State) (old : Stale)
    (nbs : List (List Nat)) (p : Nat) (ns : List Nat) (hp : nbs[p]? = some ns)
    (hs : (shapeOf B p ns).det = 0) :
    computeForce B M dt y v s old nbs.length (encode nbs) = .fail .terminate := by
  rw [computeForce_eq]
  unfold forceOn
  simp only
  rw [if_pos]
  intro hc
  obtain ⟨hlt, _⟩ := List.getElem?_eq_some_iff.1 hp
  have := ((shape_code B y (bondsOf nbs) (List.range nbs.length)
    ⟨0, old.shape.inv, old.shape.grad⟩).mp hc).2 p (List.mem_range.mpr hlt)
  rw [determinant_eq, shapeTensor_point B nbs hp] at this
  exact this hs

/-- **C74**: with fewer than three neighbors of any point the analysis ends with an error. -/
theorem C74_few_neighbors (B : Body) (M : Material) (dt : ℝ) (y v : Nat → V3) (s : State) (old : Stale)
    (nbs : List (List Nat)) (p : Nat) (ns : List Nat) (hp : nbs[p]? = some ns) (hs : ns.length < 3) :
    computeForce B M dt y v s old nbs.length (encode nbs) = .fail .terminate := by
  refine C74_singular B M dt y v s old nbs p ns hp ?_
  match ns, hs with
  | [], _ => simp [shapeOf]
  | [a], _ =>
    rw [det_fin_three]
    simp only [shapeOf, List.map_cons, List.map_nil, List.sum_cons, List.sum_nil, add_zero,
      Matrix.smul_apply, vecMulVec_apply, smul_eq_mul]
    ring
  | [a, b], _ =>
    rw [det_fin_three]
    simp only [shapeOf, List.map_cons, List.map_nil, List.sum_cons, List.sum_nil, add_zero,
      Matrix.add_apply, Matrix.smul_apply, vecMulVec_apply, smul_eq_mul]
    ring

example : computeForce cornerBody idle 1 (stretched 2) 0 virgin blank [[1, 2]].length
    (encode [[1, 2]]) = .fail .terminate :=
  C74_few_neighbors _ _ _ _ _ _ _ _ 0 [1, 2] rfl (by decide)

/-- **C75**: if at every point the neighbors have moved according to one matrix (which may differ from
point to point), there are no hourglass forces. -/
theorem C75_affine (B : Body) (M : Material) (dt : ℝ) (y v : Nat → V3) (s : State) (old : Stale)
    (nbs : List (List Nat)) (r : Result)
    (h : computeForce B M dt y v s old nbs.length (encode nbs) = .ok r)
    (hA : ∀ p ns, nbs[p]? = some ns → ∃ A, MovedBy B y p ns A) :
    (∀ k, r.hourglass k = 0) ∧ ∀ k, r.total k = r.forces.force k := by
  have hz : ∀ k, r.hourglass k = 0 := by
    obtain ⟨_, _, _, _, _, _, _, h8⟩ := computeForce_ok h
    have hs := scatter_scattered h8
    have h0 := hs.mono (Q := fun _ g => g = 0) (by
      intro b hb g hg
      obtain ⟨ns, h1, h2⟩ := mem_bondsOf hb
      obtain ⟨A, hA⟩ := hA b.i ns h1
      have hF := C74_affine B M dt y v s old nbs r h b.i ns h1 A hA
      have hv : hourglassVector B y (r.shape.grad b.i) b = 0 := by
        have e := hA b.j h2
        rw [← hF] at e
        have e0 := congrFun e 0
        have e1 := congrFun e 1
        have e2 := congrFun e 2
        simp only [mulVec, dotProduct, Fin.sum_univ_three, Pi.sub_apply] at e0 e1 e2
        funext c
        unfold hourglassVector xi
        fin_cases c
        · show _ = (0 : ℝ)
          have : y b.j 0 - y b.i 0 = (r.shape.grad b.i).xx * (B.x b.j 0 - B.x b.i 0) +
            (r.shape.grad b.i).xy * (B.x b.j 1 - B.x b.i 1) +
            (r.shape.grad b.i).xz * (B.x b.j 2 - B.x b.i 2) := e0
          simp only [Fin.zero_eta, cons_val_zero, Pi.sub_apply]
          linear_combination -this
        · show _ = (0 : ℝ)
          have : y b.j 1 - y b.i 1 = (r.shape.grad b.i).yx * (B.x b.j 0 - B.x b.i 0) +
            (r.shape.grad b.i).yy * (B.x b.j 1 - B.x b.i 1) +
            (r.shape.grad b.i).yz * (B.x b.j 2 - B.x b.i 2) := e1
          simp only [Fin.mk_one, cons_val_one, cons_val_zero, Pi.sub_apply]
          linear_combination -this
        · have : y b.j 2 - y b.i 2 = (r.shape.grad b.i).zx * (B.x b.j 0 - B.x b.i 0) +
            (r.shape.grad b.i).zy * (B.x b.j 1 - B.x b.i 1) +
            (r.shape.grad b.i).zz * (B.x b.j 2 - B.x b.i 2) := e2
          show y b.i 2 + (r.shape.grad b.i).zx * (B.x b.j 0 - B.x b.i 0) +
            (r.shape.grad b.i).zy * (B.x b.j 1 - B.x b.i 1) +
            (r.shape.grad b.i).zz * (B.x b.j 2 - B.x b.i 2) - y b.j 2 = 0
          linear_combination -this
      unfold hourglassBond at hg
      simp only at hg
      split at hg
      · exact absurd hg (by simp)
      · cases hg
        funext c
        rw [hv]
        simp)
    obtain ⟨gs, h1, h2, h3⟩ := h0
    intro k
    rw [h3 k]
    have : gs.map (pull (fun b => B.volume b.i) (fun b => B.volume b.j) k) = gs.map fun _ => 0 := by
      apply List.map_congr_left
      intro x hx
      unfold pull
      rw [h2 x hx]
      simp
    rw [this]
    simp
  exact ⟨hz, fun k => by unfold Result.total; rw [hz k, zero_add]⟩

example : ∃ r, computeForce cornerBody idle 1 (stretched 2) 0 virgin blank cornerList.length
    (encode cornerList) = .ok r ∧
    ∀ p ns, cornerList[p]? = some ns → ∃ A, MovedBy cornerBody (stretched 2) p ns A := by
  obtain ⟨r, h⟩ := corner_defined 1 2 two_ne_zero 0 virgin
  refine ⟨r, h, fun p ns hp => ⟨(2 : ℝ) • 1, fun j _ => ?_⟩⟩
  rw [smul_mulVec, one_mulVec]
  show (2 : ℝ) • cornerBody.x j - (2 : ℝ) • cornerBody.x p = _
  rw [smul_sub]

end Verif.Correspondence
