import Verif.Correspondence.Spec
import Verif.Mech.Plastic
import Mathlib.Tactic.LinearCombination

/-!
# Correspondence materials: what the loops compute
-/

noncomputable section

namespace Verif.Correspondence

open Verif Verif.Neigh Verif.Mech Verif.Tensor Matrix
open scoped Classical

theorem toMatrix_addOuter (t : M9) (c : ℝ) (a b : V3) :
    (addOuter t c a b).toMatrix = t.toMatrix + c • vecMulVec a b := by
  ext i j
  rw [Matrix.add_apply, Matrix.smul_apply, vecMulVec_apply, smul_eq_mul, ← mul_assoc]
  fin_cases i <;> fin_cases j <;> rfl

theorem foldl_addOuter (f : Bond → ℝ) (a c : Bond → V3) (bs : List Bond) (t : M9) :
    (bs.foldl (fun t b => addOuter t (f b) (a b) (c b)) t).toMatrix =
      t.toMatrix + (bs.map fun b => f b • vecMulVec (a b) (c b)).sum := by
  induction bs generalizing t with
  | nil => simp
  | cons b bs ih => rw [List.foldl_cons, ih, toMatrix_addOuter, List.map_cons, List.sum_cons, add_assoc]

theorem shapeTensor_eq (B : Body) (bs : List Bond) :
    (shapeTensor B bs).toMatrix = (bs.map fun b => weight B b • vecMulVec (xi B b) (xi B b)).sum := by
  unfold shapeTensor
  rw [foldl_addOuter, toMatrix_zero, zero_add]

theorem firstTerm_eq (B : Body) (z : Nat → V3) (bs : List Bond) :
    (firstTerm B z bs).toMatrix =
      (bs.map fun b => weight B b • vecMulVec (z b.j - z b.i) (xi B b)).sum := by
  unfold firstTerm
  rw [foldl_addOuter, toMatrix_zero, zero_add]

/-- If the vectors are images of others under a matrix, so is the sum. -/
theorem firstTerm_map (B : Body) (z z' : Nat → V3) (bs : List Bond) (A : Mat)
    (h : ∀ b ∈ bs, z b.j - z b.i = A *ᵥ (z' b.j - z' b.i)) :
    (firstTerm B z bs).toMatrix = A * (firstTerm B z' bs).toMatrix := by
  rw [firstTerm_eq, firstTerm_eq]
  induction bs with
  | nil => simp
  | cons b bs ih =>
    rw [List.map_cons, List.sum_cons, List.map_cons, List.sum_cons, mul_add,
      ih fun b hb => h b (List.mem_cons_of_mem _ hb), h b List.mem_cons_self, Matrix.mul_smul,
      mul_vecMulVec]

theorem firstTerm_reference (B : Body) (bs : List Bond) :
    firstTerm B B.x bs = shapeTensor B bs := rfl

/-- The shape tensor in terms of the neighbors. -/
theorem shapeTensor_point (B : Body) (nbs : List (List Nat)) {p : Nat} {ns : List Nat}
    (h : nbs[p]? = some ns) : (shapeTensor B (bondsAt (bondsOf nbs) p)).toMatrix = shapeOf B p ns := by
  rw [shapeTensor_eq, bondsAt, filter_bondsOf nbs h, shapeOf, List.map_map]
  have : ∀ (l : List Nat) (k : Nat),
      ((l.zipIdx k).map ((fun b => weight B b • vecMulVec (xi B b) (xi B b)) ∘
        fun x : Nat × Nat => (⟨p, x.1, bondPos nbs p x.2⟩ : Bond))) =
      l.map fun j => (B.omega (len (B.x j - B.x p)) (B.horizon p) * B.volume j) •
        vecMulVec (B.x j - B.x p) (B.x j - B.x p) := by
    intro l
    induction l with
    | nil => intro k; rfl
    | cons j l ih =>
      intro k
      rw [List.zipIdx_cons, List.map_cons, ih, List.map_cons]
      congr 1
      show ((1 - 0) * B.omega (len (B.x j - B.x p)) (B.horizon p) * B.volume j) •
        vecMulVec (B.x j - B.x p) (B.x j - B.x p) = _
      rw [sub_zero, one_mul]
  exact congrArg List.sum (this ns 0)

theorem mem_bondsAt {nbs : List (List Nat)} {p : Nat} {b : Bond} (h : b ∈ bondsAt (bondsOf nbs) p) :
    b.i = p ∧ ∃ ns, nbs[p]? = some ns ∧ b.j ∈ ns := by
  have h' := List.mem_filter.mp h
  have hi : b.i = p := by simpa using h'.2
  obtain ⟨ns, h1, h2⟩ := mem_bondsOf h'.1
  exact ⟨hi, ns, by rw [← hi]; exact h1, h2⟩

theorem bondsAt_range {nbs : List (List Nat)} {p : Nat} {ns : List Nat} (h : nbs[p]? = some ns)
    {b : Bond} (hb : b ∈ bondsAt (bondsOf nbs) p) : b.i = p ∧ b.j ∈ ns := by
  obtain ⟨h1, ns', h2, h3⟩ := mem_bondsAt hb
  rw [h] at h2
  cases h2
  exact ⟨h1, h3⟩

/-! ### The loops over points -/

/-- Matrix products with factor one. -/
theorem toMatrix_mm (a b : M9) : (matrixMultiply false false 1 a b).toMatrix = a.toMatrix * b.toMatrix := by
  rw [matrixMultiply_eq]; simp

theorem toMatrix_mmT (c : ℝ) (a b : M9) :
    (matrixMultiply false true c a b).toMatrix = c • (a.toMatrix * b.toMatrixᵀ) := by
  rw [matrixMultiply_eq]; simp

theorem toMatrix_mTm (a b : M9) :
    (matrixMultiply true false 1 a b).toMatrix = a.toMatrixᵀ * b.toMatrix := by
  rw [matrixMultiply_eq]; simp

theorem shape_fold (B : Body) (y : Nat → V3) (bonds : List Bond) (ps : List Nat) (s : Shape) (p : Nat) :
    (p ∈ ps →
      (ps.foldl (shapePoint B y bonds) s).inv p = (invert3 (shapeTensor B (bondsAt bonds p))).2 ∧
      (ps.foldl (shapePoint B y bonds) s).grad p = matrixMultiply false false 1
        (firstTerm B y (bondsAt bonds p)) (invert3 (shapeTensor B (bondsAt bonds p))).2) ∧
    (p ∉ ps → (ps.foldl (shapePoint B y bonds) s).inv p = s.inv p ∧
      (ps.foldl (shapePoint B y bonds) s).grad p = s.grad p) := by
  induction ps generalizing s with
  | nil => exact ⟨fun h => absurd h (by simp), fun _ => ⟨rfl, rfl⟩⟩
  | cons q ps ih =>
    rw [List.foldl_cons]
    obtain ⟨h1, h2⟩ := ih (shapePoint B y bonds s q)
    refine ⟨fun h => ?_, fun h => ?_⟩
    · by_cases hp : p ∈ ps
      · exact h1 hp
      · have hq : p = q := by
          rcases List.mem_cons.mp h with h | h
          · exact h
          · exact absurd h hp
        obtain ⟨e1, e2⟩ := h2 hp
        rw [e1, e2, hq]
        exact ⟨Function.update_self _ _ _, Function.update_self _ _ _⟩
    · rw [List.mem_cons, not_or] at h
      obtain ⟨e1, e2⟩ := h2 h.2
      rw [e1, e2]
      exact ⟨Function.update_of_ne h.1 _ _, Function.update_of_ne h.1 _ _⟩

theorem shape_code (B : Body) (y : Nat → V3) (bonds : List Bond) (ps : List Nat) (s : Shape) :
    (ps.foldl (shapePoint B y bonds) s).code = 0 ↔
      s.code = 0 ∧ ∀ p ∈ ps, determinant (shapeTensor B (bondsAt bonds p)) ≠ 0 := by
  induction ps generalizing s with
  | nil => simp
  | cons q ps ih =>
    rw [List.foldl_cons, ih]
    have : (shapePoint B y bonds s q).code = 0 ↔
        s.code = 0 ∧ determinant (shapeTensor B (bondsAt bonds q)) ≠ 0 := by
      rw [← invert3_code]
      show (if _ then _ else _) = 0 ↔ _
      split
      · rename_i h
        exact ⟨fun e => absurd e (Nat.ne_of_gt h), fun e => absurd e.2 (Nat.ne_of_gt h)⟩
      · rename_i h
        exact ⟨fun e => ⟨e, Nat.eq_zero_of_not_pos h⟩, And.left⟩
    rw [this, List.forall_mem_cons, and_assoc]

theorem rotation_fold (B : Body) (dt : ℝ) (v : Nat → V3) (bonds : List Bond) (k : Shape)
    (V R : Nat → M9) (ps : List Nat) (s : Rotation) (p : Nat) :
    (p ∈ ps →
      (ps.foldl (rotationPoint B dt v bonds k V R) s).stretch p = newStretch dt
        (velocityGradient B v (bondsAt bonds p) (k.inv p) (k.grad p)) (V p) ∧
      (ps.foldl (rotationPoint B dt v bonds k V R) s).rotation p = newRotation dt
        (velocityGradient B v (bondsAt bonds p) (k.inv p) (k.grad p)) (V p) (R p) ∧
      (ps.foldl (rotationPoint B dt v bonds k V R) s).rate p =
        unrotated (velocityGradient B v (bondsAt bonds p) (k.inv p) (k.grad p)) (newRotation dt
          (velocityGradient B v (bondsAt bonds p) (k.inv p) (k.grad p)) (V p) (R p))) ∧
    (p ∉ ps → (ps.foldl (rotationPoint B dt v bonds k V R) s).stretch p = s.stretch p ∧
      (ps.foldl (rotationPoint B dt v bonds k V R) s).rotation p = s.rotation p ∧
      (ps.foldl (rotationPoint B dt v bonds k V R) s).rate p = s.rate p) := by
  induction ps generalizing s with
  | nil => exact ⟨fun h => absurd h (by simp), fun _ => ⟨rfl, rfl, rfl⟩⟩
  | cons q ps ih =>
    rw [List.foldl_cons]
    obtain ⟨h1, h2⟩ := ih (rotationPoint B dt v bonds k V R s q)
    refine ⟨fun h => ?_, fun h => ?_⟩
    · by_cases hp : p ∈ ps
      · exact h1 hp
      · have hq : p = q := by
          rcases List.mem_cons.mp h with h | h
          · exact h
          · exact absurd h hp
        obtain ⟨e1, e2, e3⟩ := h2 hp
        rw [e1, e2, e3, hq]
        exact ⟨Function.update_self _ _ _, Function.update_self _ _ _, Function.update_self _ _ _⟩
    · rw [List.mem_cons, not_or] at h
      obtain ⟨e1, e2, e3⟩ := h2 h.2
      rw [e1, e2, e3]
      exact ⟨Function.update_of_ne h.1 _ _, Function.update_of_ne h.1 _ _,
        Function.update_of_ne h.1 _ _⟩

theorem rotation_code (B : Body) (dt : ℝ) (v : Nat → V3) (bonds : List Bond) (k : Shape)
    (V R : Nat → M9) (ps : List Nat) (s : Rotation) :
    (ps.foldl (rotationPoint B dt v bonds k V R) s).code = 0 ↔
      s.code = 0 ∧ ∀ p ∈ ps, determinant (k.grad p) ≠ 0 := by
  induction ps generalizing s with
  | nil => simp
  | cons q ps ih =>
    rw [List.foldl_cons, ih]
    have : (rotationPoint B dt v bonds k V R s q).code = 0 ↔
        s.code = 0 ∧ determinant (k.grad q) ≠ 0 := by
      rw [← invert3_code]
      show (if _ then _ else _) = 0 ↔ _
      split
      · rename_i h
        exact ⟨fun e => absurd e (Nat.ne_of_gt h), fun e => absurd e.2 (Nat.ne_of_gt h)⟩
      · rename_i h
        exact ⟨fun e => ⟨e, Nat.eq_zero_of_not_pos h⟩, And.left⟩
    rw [this, List.forall_mem_cons, and_assoc]

/-! ### The parts of an evaluation -/

/-- The shape tensors and deformation gradients of an evaluation. -/
abbrev kinOf (B : Body) (y : Nat → V3) (nbs : List (List Nat)) (old : Stale) : Shape :=
  shapeAndGradient B y nbs.length (bondsOf nbs) old.shape.inv old.shape.grad

/-- The rotations of an evaluation. -/
abbrev rotOf (B : Body) (dt : ℝ) (y v : Nat → V3) (s : State) (nbs : List (List Nat)) (old : Stale) :
    Rotation :=
  rotations B dt v nbs.length (bondsOf nbs) (kinOf B y nbs old) s.stretch s.rotation old.kinematics

theorem computeForce_eq (B : Body) (M : Material) (dt : ℝ) (y v : Nat → V3) (s : State) (old : Stale)
    (nbs : List (List Nat)) :
    computeForce B M dt y v s old nbs.length (encode nbs) =
      forceOn B M dt y v s old nbs.length (bondsOf nbs) := by
  unfold computeForce
  rw [visited_encode]
  rfl

theorem computeForce_ok {B : Body} {M : Material} {dt : ℝ} {y v : Nat → V3} {s : State} {old : Stale}
    {nbs : List (List Nat)} {r : Result}
    (h : computeForce B M dt y v s old nbs.length (encode nbs) = .ok r) :
    r.shape = kinOf B y nbs old ∧ r.shape.code = 0 ∧ r.kinematics = rotOf B dt y v s nbs old ∧
    r.kinematics.code = 0 ∧ M.update dt r.kinematics.rate s.stress = .ok r.stress ∧
    (∀ p, r.cauchy p = rotateStress (r.kinematics.rotation p) (r.stress p)) ∧
    (List.range nbs.length).foldlM (forcePoint B (bondsOf nbs) r.shape r.cauchy) ⟨0, fun _ => zero⟩ =
      .ok r.forces ∧
    Verif.Correspondence.hourglass B y r.shape.grad M.bulk M.hourglassCoefficient (bondsOf nbs) =
      .ok r.hourglass := by
  rw [computeForce_eq] at h
  unfold forceOn at h
  simp only at h
  split at h
  · exact absurd h (by simp)
  · rename_i hc
    split at h
    · exact absurd h (by simp)
    · rename_i hc2
      obtain ⟨sigma, h1, h⟩ := Outcome.bind_eq_ok.mp h
      obtain ⟨f, h2, h⟩ := Outcome.bind_eq_ok.mp h
      obtain ⟨g, h3, h⟩ := Outcome.bind_eq_ok.mp h
      cases h
      exact ⟨rfl, by simpa using hc, rfl, by simpa using hc2, h1, fun _ => rfl, h2, h3⟩

/-- At a point of a successful evaluation, shape tensor and deformation gradient are invertible. -/
theorem shape_at {B : Body} {M : Material} {dt : ℝ} {y v : Nat → V3} {s : State} {old : Stale}
    {nbs : List (List Nat)} {r : Result}
    (h : computeForce B M dt y v s old nbs.length (encode nbs) = .ok r) {p : Nat}
    (hp : p < nbs.length) :
    determinant (shapeTensor B (bondsAt (bondsOf nbs) p)) ≠ 0 ∧
    determinant (r.shape.grad p) ≠ 0 ∧
    r.shape.inv p = (invert3 (shapeTensor B (bondsAt (bondsOf nbs) p))).2 ∧
    r.shape.grad p = matrixMultiply false false 1 (firstTerm B y (bondsAt (bondsOf nbs) p))
      (r.shape.inv p) := by
  obtain ⟨h1, h2, h3, h4, _⟩ := computeForce_ok h
  have hr := List.mem_range.mpr hp
  have e := (shape_fold B y (bondsOf nbs) (List.range nbs.length) ⟨0, old.shape.inv, old.shape.grad⟩ p).1 hr
  rw [h1] at h2 ⊢
  have hd := ((shape_code B y (bondsOf nbs) (List.range nbs.length)
    ⟨0, old.shape.inv, old.shape.grad⟩).mp h2).2 p hr
  rw [h3] at h4
  have hg := ((rotation_code B dt v (bondsOf nbs) (kinOf B y nbs old) s.stretch s.rotation
    (List.range nbs.length) { old.kinematics with code := 0 }).mp h4).2 p hr
  refine ⟨hd, hg, e.1, ?_⟩
  rw [show (kinOf B y nbs old).inv p = _ from e.1]
  exact e.2

/-- What the deformation gradient is. -/
theorem grad_at {B : Body} {M : Material} {dt : ℝ} {y v : Nat → V3} {s : State} {old : Stale}
    {nbs : List (List Nat)} {r : Result}
    (h : computeForce B M dt y v s old nbs.length (encode nbs) = .ok r) {p : Nat}
    (hp : p < nbs.length) :
    (r.shape.grad p).toMatrix * (shapeTensor B (bondsAt (bondsOf nbs) p)).toMatrix =
      (firstTerm B y (bondsAt (bondsOf nbs) p)).toMatrix ∧
    (shapeTensor B (bondsAt (bondsOf nbs) p)).toMatrix * (r.shape.inv p).toMatrix = 1 ∧
    (r.shape.inv p).toMatrix * (shapeTensor B (bondsAt (bondsOf nbs) p)).toMatrix = 1 := by
  obtain ⟨h1, h2, h3, h4⟩ := shape_at h hp
  refine ⟨?_, by rw [h3]; exact product_invert3 h1, by rw [h3]; exact invert3_product h1⟩
  rw [h4, toMatrix_mm, h3, Matrix.mul_assoc, invert3_product h1, Matrix.mul_one]

end Verif.Correspondence
