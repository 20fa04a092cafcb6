import Verif.Correspondence.Lemmas
import Verif.BC.Lemmas

/-!
# Correspondence materials: when an evaluation succeeds, and a body to evaluate
-/

noncomputable section

namespace Verif.Correspondence

open Verif Verif.Neigh Verif.Mech Verif.Tensor Matrix
open scoped Classical

theorem forcePoints_defined (B : Body) (bonds : List Bond) (k : Shape) (sigma : Nat → M9) (ps : List Nat)
    (h : ∀ p ∈ ps, determinant (k.grad p) ≠ 0) (s : Forces) :
    ∃ f, ps.foldlM (forcePoint B bonds k sigma) s = .ok f := by
  induction ps generalizing s with
  | nil => exact ⟨s, rfl⟩
  | cons p ps ih =>
    obtain ⟨f, hf⟩ := ih (fun q hq => h q (List.mem_cons_of_mem _ hq))
      ((bondsAt bonds p).foldl
        (forceBond B (matrixMultiply false false 1 (piola (k.grad p) (sigma p)) (k.inv p))) s)
    refine ⟨f, BC.foldlM_cons_ok.mpr ⟨_, ?_, hf⟩⟩
    have hc := (invert3_code (k.grad p)).mpr (h p List.mem_cons_self)
    unfold forcePoint
    rw [if_neg (by rw [hc]; simp)]

/-- An evaluation succeeds if all shape tensors and deformation gradients are invertible, no bond
vanishes and no horizon is zero. -/
theorem computeForce_defined (B : Body) (M : Material) (dt : ℝ) (y v : Nat → V3) (s : State) (old : Stale)
    (nbs : List (List Nat))
    (hK : ∀ p ns, nbs[p]? = some ns → (shapeOf B p ns).det ≠ 0)
    (hF : ∀ p ns, nbs[p]? = some ns → determinant (matrixMultiply false false 1
      (firstTerm B y (bondsAt (bondsOf nbs) p))
      (invert3 (shapeTensor B (bondsAt (bondsOf nbs) p))).2) ≠ 0)
    (hb : ∀ p j, HasBond nbs p j → B.horizon p ≠ 0 ∧ len (B.x j - B.x p) ≠ 0 ∧ len (y j - y p) ≠ 0)
    (hM : ∀ d, ∃ t, M.update dt d s.stress = .ok t) :
    ∃ r, computeForce B M dt y v s old nbs.length (encode nbs) = .ok r := by
  rw [computeForce_eq]
  unfold forceOn
  simp only
  have hget : ∀ p ∈ List.range nbs.length, ∃ ns, nbs[p]? = some ns := fun p hp =>
    ⟨_, List.getElem?_eq_getElem (List.mem_range.mp hp)⟩
  have hgrad : ∀ p ∈ List.range nbs.length, determinant ((kinOf B y nbs old).grad p) ≠ 0 := by
    intro p hp
    obtain ⟨ns, h⟩ := hget p hp
    have e := ((shape_fold B y (bondsOf nbs) (List.range nbs.length)
      ⟨0, old.shape.inv, old.shape.grad⟩ p).1 hp).2
    show determinant (((List.range nbs.length).foldl (shapePoint B y (bondsOf nbs)) _).grad p) ≠ 0
    rw [e]
    exact hF p ns h
  have c1 : (kinOf B y nbs old).code = 0 := by
    refine (shape_code B y (bondsOf nbs) (List.range nbs.length)
      ⟨0, old.shape.inv, old.shape.grad⟩).mpr ⟨rfl, fun p hp => ?_⟩
    obtain ⟨ns, h⟩ := hget p hp
    rw [determinant_eq, shapeTensor_point B nbs h]
    exact hK p ns h
  have c2 : (rotOf B dt y v s nbs old).code = 0 :=
    (rotation_code B dt v (bondsOf nbs) (kinOf B y nbs old) s.stretch s.rotation
      (List.range nbs.length) { old.kinematics with code := 0 }).mpr ⟨rfl, hgrad⟩
  rw [if_neg (by rw [c1]; simp), if_neg (by rw [c2]; simp)]
  obtain ⟨t, ht⟩ := hM (rotOf B dt y v s nbs old).rate
  rw [ht]
  simp only [Outcome.ok_bind]
  obtain ⟨f, hf⟩ := forcePoints_defined B (bondsOf nbs) (kinOf B y nbs old)
    (fun p => rotateStress ((rotOf B dt y v s nbs old).rotation p) (t p)) (List.range nbs.length) hgrad
    ⟨0, fun _ => zero⟩
  rw [hf]
  simp only [Outcome.ok_bind]
  have hh : ∃ g, Verif.Correspondence.hourglass B y (kinOf B y nbs old).grad M.bulk
      M.hourglassCoefficient (bondsOf nbs) = .ok g := by
    refine scatter_ok _ fun b hbm => ?_
    obtain ⟨ns, h1, h2⟩ := mem_bondsOf hbm
    obtain ⟨e1, e2, e3⟩ := hb b.i b.j ⟨ns, h1, h2⟩
    unfold hourglassBond
    simp only
    rw [if_neg (by rintro (h | h | h); exacts [e1 h, e2 h, e3 h])]
    exact ⟨_, rfl⟩
  obtain ⟨g, hg⟩ := hh
  rw [hg]
  exact ⟨_, rfl⟩

/-! ### A body of one point with three neighbors -/

/-- The corner of a unit cube, its three neighbors along the axes; volumes and influence one. -/
def cornerBody : Body where
  x := fun p => if p = 1 then ![1, 0, 0] else if p = 2 then ![0, 1, 0] else
    if p = 3 then ![0, 0, 1] else ![0, 0, 0]
  volume := fun _ => 1
  horizon := fun _ => 1
  omega := fun _ _ => 1
  omegaForce := fun _ _ => 1

/-- Neighborhoods of `cornerBody`; only point 0 is owned. -/
def cornerList : List (List Nat) := [[1, 2, 3]]

/-- A material that keeps its stress. -/
def idle : Material where
  bulk := 1
  hourglassCoefficient := 1
  update := fun _ _ s => .ok s

/-- Unit stretch and rotation, unit stress. -/
def virgin : State := ⟨fun _ => identity, fun _ => identity, fun _ => identity⟩

/-- Stale arrays. -/
def blank : Stale := ⟨⟨0, fun _ => zero, fun _ => zero⟩, ⟨0, fun _ => zero, fun _ => zero, fun _ => zero⟩⟩

theorem vec_two (a b c : ℝ) : (![a, b, c] : V3) 2 = c := rfl

theorem corner_get {p : Nat} {ns : List Nat} (h : cornerList[p]? = some ns) : p = 0 ∧ ns = [1, 2, 3] := by
  cases p with
  | zero => simp [cornerList] at h; exact ⟨rfl, h.symm⟩
  | succ p => simp [cornerList] at h

theorem corner_shape : shapeTensor cornerBody (bondsAt (bondsOf cornerList) 0) = identity := by
  have e : bondsAt (bondsOf cornerList) 0 = [⟨0, 1, 0⟩, ⟨0, 2, 1⟩, ⟨0, 3, 2⟩] := by decide
  rw [e]
  simp only [shapeTensor, List.foldl_cons, List.foldl_nil, addOuter, weight, xi, cornerBody, Tensor.zero,
    identity]
  ext <;> norm_num [vec_two]

theorem toMatrix_identity : identity.toMatrix = 1 := by
  ext i j; fin_cases i <;> fin_cases j <;> rfl

theorem invert_identity : (invert3 identity).2 = identity := by
  have hd : determinant identity ≠ 0 := by norm_num [determinant, identity]
  apply toMatrix_injective
  have := product_invert3 hd
  rw [toMatrix_identity, Matrix.one_mul] at this
  rw [this, toMatrix_identity]

/-- The positions after stretching the corner by a factor. -/
def stretched (a : ℝ) : Nat → V3 := fun p => a • cornerBody.x p

theorem corner_first (a : ℝ) : firstTerm cornerBody (stretched a) (bondsAt (bondsOf cornerList) 0) =
    ⟨a, 0, 0, 0, a, 0, 0, 0, a⟩ := by
  have e : bondsAt (bondsOf cornerList) 0 = [⟨0, 1, 0⟩, ⟨0, 2, 1⟩, ⟨0, 3, 2⟩] := by decide
  rw [e]
  simp only [firstTerm, List.foldl_cons, List.foldl_nil, addOuter, weight, xi, cornerBody, Tensor.zero,
    stretched]
  ext <;> norm_num [vec_two]

theorem corner_len (j : Nat) (hj : j ∈ [1, 2, 3]) (a : ℝ) (ha : a ≠ 0) :
    len (cornerBody.x j - cornerBody.x 0) ≠ 0 ∧ len (stretched a j - stretched a 0) ≠ 0 := by
  have hpos : 0 < a * a := mul_self_pos.mpr ha
  simp only [List.mem_cons, List.not_mem_nil, or_false] at hj
  rcases hj with rfl | rfl | rfl <;>
    simp [len, cornerBody, stretched, Real.sqrt_eq_zero', hpos, vec_two]

/-- The stretched corner can be evaluated, whatever the velocities. -/
theorem corner_defined (dt a : ℝ) (ha : a ≠ 0) (v : Nat → V3) (s : State) :
    ∃ r, computeForce cornerBody idle dt (stretched a) v s blank cornerList.length
      (encode cornerList) = .ok r := by
  refine computeForce_defined _ _ _ _ _ _ _ _ ?_ ?_ ?_ ?_
  · intro p ns h
    obtain ⟨rfl, rfl⟩ := corner_get h
    rw [← shapeTensor_point cornerBody cornerList h, corner_shape, toMatrix_identity]
    simp
  · intro p ns h
    obtain ⟨rfl, rfl⟩ := corner_get h
    rw [corner_shape, invert_identity, corner_first, determinant_eq, toMatrix_mm, toMatrix_identity,
      Matrix.mul_one, ← determinant_eq]
    simp [determinant, ha]
  · rintro p j ⟨ns, h, hj⟩
    obtain ⟨rfl, rfl⟩ := corner_get h
    exact ⟨one_ne_zero, corner_len j hj a ha⟩
  · exact fun d => ⟨_, rfl⟩

end Verif.Correspondence
