import Verif.Newton.Lemmas
import Mathlib.Tactic.NormNum
import Mathlib.Tactic.Positivity
import Mathlib.Tactic.IntervalCases

/-!
# C226: what damping does to the tangent
-/

namespace Verif.Newton

open Verif

/-- **C226** (entries): damping multiplies the diagonal by the scale factor and adds the shift factor times the
largest absolute value of the scaled diagonal, and changes nothing else, wherever the rows are stored. -/
theorem C226_entries {scale shift m : ℝ} {A : Mat} (h : Sound A) (hm : IsPeak A m) :
    ids (damp scale shift A) = ids A ∧
    ∀ i ∈ ids A, coeff (damp scale shift A) i i = scale * coeff A i i + shift * (|scale| * m) ∧
      ∀ j, j ≠ i → coeff (damp scale shift A) i j = coeff A i j := by
  refine ⟨damp_ids _ _ _, fun i hi => ⟨?_, fun j hj => ?_⟩⟩
  · rw [damp_coeff_norm h hi, if_pos rfl, dampNorm_eq h hm]
  · rw [damp_coeff_norm h hi, if_neg hj]

/-- **C226** (graph): damping creates and removes no entries; a row without a diagonal entry stays as it is. -/
theorem C226_graph (scale shift : ℝ) (A : Mat) :
    List.Forall₂ (fun r q : Row => q.gid = r.gid ∧ (∀ j, (q.entry j).isSome = (r.entry j).isSome) ∧
      (r.entry r.gid = none → q.entry = r.entry)) A.flatten (damp scale shift A).flatten := by
  rw [damp_flatten, List.forall₂_map_right_iff, List.forall₂_same]
  intro r _
  refine ⟨rfl, fun j => ?_, fun hn => ?_⟩
  · unfold Row.replaceDiagonal
    by_cases hj : j = r.gid
    · simp [hj]
    · simp [hj]
  · unfold Row.replaceDiagonal
    funext j
    by_cases hj : j = r.gid
    · simp [hj, hn]
    · simp [hj]

/-- A row without a diagonal entry beside one that has one. -/
example : ∀ q ∈ (damp 2 1 [[⟨3, fun j => if j = 4 then some 5 else none⟩], [⟨4, fun j => if j = 4 then some 1 else none⟩]]).flatten,
    q.gid = 3 → q.entry 3 = none ∧ q.entry 4 = some 5 := by
  intro q hq hg
  obtain ⟨a, hr⟩ := List.forall₂_iff_get.1 (C226_graph 2 1
    [[⟨3, fun j => if j = 4 then some 5 else none⟩], [⟨4, fun j => if j = 4 then some 1 else none⟩]])
  obtain ⟨k, hk, rfl⟩ := List.mem_iff_getElem.1 hq
  have hk2 : k < 2 := by rw [← a] at hk; exact hk
  interval_cases k
  · obtain ⟨-, -, h3⟩ := hr 0 (by simp) hk
    have := h3 (by simp)
    simp only [List.get_eq_getElem] at this
    rw [this]
    simp
  · obtain ⟨h1, -, -⟩ := hr 1 (by simp) hk
    simp only [List.get_eq_getElem] at h1
    rw [h1] at hg
    simp at hg

/-- **C226** (processors): the damped matrix does not depend on how the rows are spread over processors. -/
theorem C226_processors {scale shift : ℝ} {A B : Mat} (hA : Sound A) (h : A.flatten.Perm B.flatten) (i j : Nat) :
    coeff (damp scale shift A) i j = coeff (damp scale shift B) i j := by
  have hB : Sound B := ⟨(h.map Row.gid).nodup_iff.1 hA.once, fun r hr => hA.whole r (h.mem_iff.2 hr)⟩
  have hn : dampNorm scale A = dampNorm scale B := localNormInf_perm (h.map _)
  by_cases hi : i ∈ ids A
  · obtain ⟨r, hr, rfl⟩ := mem_ids.1 hi
    have hi' : r.gid ∈ ids B := mem_ids.2 ⟨r, h.mem_iff.1 hr, rfl⟩
    rw [damp_coeff_norm hA hi, damp_coeff_norm hB hi', hn, coeff_row hA.once hr, coeff_row hB.once (h.mem_iff.1 hr),
      coeff_row hA.once hr, coeff_row hB.once (h.mem_iff.1 hr)]
  · have hi' : i ∉ ids B := fun hb => by
      obtain ⟨r, hr, e⟩ := mem_ids.1 hb
      exact hi (mem_ids.2 ⟨r, h.mem_iff.2 hr, e⟩)
    rw [coeff_off (by rwa [damp_ids]), coeff_off (by rwa [damp_ids])]

/-- The product with the damped matrix. -/
theorem damp_times {scale shift m : ℝ} {A : Mat} (h : Sound A) (hm : IsPeak A m) (x : Nat → ℝ) {i : Nat}
    (hi : i ∈ ids A) : times (damp scale shift A) x i =
      times A x i + ((scale - 1) * coeff A i i + shift * (|scale| * m)) * x i := by
  unfold times
  rw [damp_ids, ← Finset.add_sum_erase _ _ hi, ← Finset.add_sum_erase (f := fun j => coeff A i j * x j) _ hi,
    ((C226_entries (scale := scale) (shift := shift) h hm).2 i hi).1]
  rw [Finset.sum_congr rfl fun j hj => by
    rw [((C226_entries (scale := scale) (shift := shift) h hm).2 i hi).2 j (Finset.ne_of_mem_erase hj)]]
  ring

/-- **C226** (quadratic form): the quadratic form changes by exactly the part that belongs to the diagonal. -/
theorem C226_form {scale shift m : ℝ} {A : Mat} (h : Sound A) (hm : IsPeak A m) (x : Nat → ℝ) :
    form (damp scale shift A) x = form A x +
      ∑ i ∈ ids A, ((scale - 1) * coeff A i i + shift * (|scale| * m)) * x i ^ 2 := by
  unfold form
  rw [damp_ids, ← Finset.sum_add_distrib]
  refine Finset.sum_congr rfl fun i hi => ?_
  rw [damp_times h hm x hi]; ring

/-- **C226** (stability): if no diagonal entry is negative, a scale factor of at least one and any shift factor that
is not negative lift the quadratic form by at least the shift. -/
theorem C226_lift {scale shift m : ℝ} {A : Mat} (h : Sound A) (hm : IsPeak A m) (hs : 1 ≤ scale)
    (hd : ∀ i ∈ ids A, 0 ≤ coeff A i i) (x : Nat → ℝ) :
    form A x + shift * (scale * m) * ∑ i ∈ ids A, x i ^ 2 ≤ form (damp scale shift A) x := by
  rw [C226_form h hm x, Finset.mul_sum, abs_of_nonneg (by linarith : (0:ℝ) ≤ scale)]
  refine add_le_add_right (Finset.sum_le_sum fun i hi => ?_) _
  have := mul_nonneg (mul_nonneg (sub_nonneg.2 hs) (hd i hi)) (sq_nonneg (x i))
  nlinarith

/-- The quadratic form at a unit vector. -/
theorem form_unit {A : Mat} {i : Nat} (hi : i ∈ ids A) : form A (fun j => if j = i then 1 else 0) = coeff A i i := by
  unfold form times
  rw [Finset.sum_eq_single i (fun j _ hj => by simp [hj]) (fun h => absurd hi h)]
  simp only [if_true, one_mul]
  rw [Finset.sum_eq_single i (fun j _ hj => by simp [hj]) (fun h => absurd hi h)]
  simp

/-- **C226** (definiteness): a positive semidefinite tangent, which may be singular, becomes positive definite. -/
theorem C226_definite {scale shift m : ℝ} {A : Mat} (h : Sound A) (hm : IsPeak A m) (hpos : 0 < m) (hs : 1 ≤ scale)
    (hshift : 0 < shift) (hA : ∀ x, 0 ≤ form A x) (x : Nat → ℝ) (hx : ∃ i ∈ ids A, x i ≠ 0) :
    0 < form (damp scale shift A) x := by
  have hd : ∀ i ∈ ids A, 0 ≤ coeff A i i := fun i hi => by rw [← form_unit hi]; exact hA _
  obtain ⟨i, hi, hxi⟩ := hx
  have h1 : 0 < ∑ i ∈ ids A, x i ^ 2 :=
    Finset.sum_pos' (fun _ _ => sq_nonneg _) ⟨i, hi, by positivity⟩
  have h2 := C226_lift (shift := shift) h hm hs hd x
  have h3 : 0 < shift * (scale * m) := by positivity
  have h4 := mul_pos h3 h1
  have h5 := hA x
  linarith

/-- The quadratic form of a solution. -/
theorem form_solves {A : Mat} {x b : Nat → ℝ} (h : Solves A x b) : form A x = ∑ i ∈ ids A, x i * b i :=
  Finset.sum_congr rfl fun i hi => by rw [h i hi]

theorem times_sub (A : Mat) (x y : Nat → ℝ) (i : Nat) : times A (fun j => x j - y j) i = times A x i - times A y i := by
  unfold times
  rw [← Finset.sum_sub_distrib]
  exact Finset.sum_congr rfl fun j _ => by ring

/-- **C226** (the damped system): under these conditions the damped system has at most one solution, and for a residual
that is not zero the increment points down: its product with the residual is positive. -/
theorem C226_system {scale shift m : ℝ} {A : Mat} (h : Sound A) (hm : IsPeak A m) (hpos : 0 < m) (hs : 1 ≤ scale)
    (hshift : 0 < shift) (hA : ∀ x, 0 ≤ form A x) :
    (∀ x y b, Solves (damp scale shift A) x b → Solves (damp scale shift A) y b → ∀ i ∈ ids A, x i = y i) ∧
    (∀ x b, Solves (damp scale shift A) x b → (∃ i ∈ ids A, b i ≠ 0) → 0 < ∑ i ∈ ids A, x i * b i) := by
  constructor
  · intro x y b hx hy
    by_contra hne
    push Not at hne
    obtain ⟨i, hi, hxy⟩ := hne
    have hp := C226_definite h hm hpos hs hshift hA (fun j => x j - y j) ⟨i, hi, sub_ne_zero.2 hxy⟩
    have hz : Solves (damp scale shift A) (fun j => x j - y j) (fun _ => 0) := fun i hi => by
      rw [times_sub, hx i hi, hy i hi, sub_self]
    rw [form_solves hz] at hp
    simp at hp
  · rintro x b hx ⟨i, hi, hb⟩
    have e := form_solves hx
    rw [damp_ids] at e
    rw [← e]
    refine C226_definite h hm hpos hs hshift hA x ?_
    by_contra hne
    push Not at hne
    apply hb
    rw [← hx i (by rwa [damp_ids])]
    unfold times
    rw [damp_ids]
    exact Finset.sum_eq_zero fun j hj => by rw [hne j hj, mul_zero]

/-! ## Examples -/

/-- Two points joined by a spring, on two processors: singular and positive semidefinite. -/
noncomputable def spring : Mat :=
  [[⟨0, fun j => if j = 0 then some 1 else if j = 1 then some (-1) else none⟩],
   [⟨1, fun j => if j = 0 then some (-1) else if j = 1 then some 1 else none⟩]]

theorem spring_sound : Sound spring := ⟨by decide, by simp [spring]⟩

theorem spring_ids : ids spring = {0, 1} := by simp [ids, spring]

theorem spring_coeff : coeff spring 0 0 = 1 ∧ coeff spring 0 1 = -1 ∧ coeff spring 1 0 = -1 ∧ coeff spring 1 1 = 1 := by
  simp [coeff, spring]

theorem spring_peak : IsPeak spring 1 := by
  obtain ⟨h00, _, _, h11⟩ := spring_coeff
  constructor
  · exact ⟨0, by simp [spring_ids], by rw [h00]; simp⟩
  · rintro a ⟨i, hi, rfl⟩
    rw [spring_ids] at hi
    rcases Finset.mem_insert.1 hi with rfl | hi
    · rw [h00]; simp
    · rw [Finset.mem_singleton.1 hi, h11]; simp

theorem spring_form (x : Nat → ℝ) : form spring x = (x 0 - x 1) ^ 2 := by
  obtain ⟨h00, h01, h10, h11⟩ := spring_coeff
  unfold form times
  rw [spring_ids, Finset.sum_pair (by decide), Finset.sum_pair (by decide), Finset.sum_pair (by decide), h00, h01, h10, h11]
  ring

example : Sound spring ∧ IsPeak spring 1 ∧ (∀ x, 0 ≤ form spring x) ∧ form spring (fun _ => 1) = 0 ∧
    (∃ x b, Solves (damp 1.0001 0.00001 spring) x b ∧ ∃ i ∈ ids spring, b i ≠ 0) := by
  refine ⟨spring_sound, spring_peak, fun x => by rw [spring_form]; positivity, by rw [spring_form]; norm_num,
    fun j => if j = 0 then 1 else 0, times (damp 1.0001 0.00001 spring) _, fun i _ => rfl, 1, by simp [spring_ids], ?_⟩
  have h1 : 1 ∈ ids spring := by simp [spring_ids]
  rw [damp_times spring_sound spring_peak _ h1]
  unfold times
  obtain ⟨_, _, h10, h11⟩ := spring_coeff
  rw [spring_ids, Finset.sum_pair (by decide), h10, h11]
  norm_num

example : Sound spring ∧ spring.flatten.Perm [spring.flatten.reverse].flatten :=
  ⟨spring_sound, by simpa using (List.reverse_perm spring.flatten).symm⟩

example : ∀ i ∈ ids spring, 0 ≤ coeff spring i i := by
  obtain ⟨h00, _, _, h11⟩ := spring_coeff
  intro i hi
  rw [spring_ids] at hi
  rcases Finset.mem_insert.1 hi with rfl | hi
  · rw [h00]; norm_num
  · rw [Finset.mem_singleton.1 hi, h11]; norm_num

/-- One row with a negative diagonal entry. -/
noncomputable def unstable : Mat := [[⟨0, fun j => if j = 0 then some (-1) else none⟩]]

/-- **C226** is false for tangents with a negative diagonal entry: with the default factors damping makes the
entry more negative, because the scale factor outweighs the shift. -/
theorem C226_unstable_fails : Sound unstable ∧
    form (damp 1.0001 0.00001 unstable) (fun _ => 1) < form unstable (fun _ => 1) := by
  have hs : Sound unstable := ⟨by decide, by simp [unstable]⟩
  have hc : coeff unstable 0 0 = -1 := by simp [coeff, unstable]
  have hi : ids unstable = {0} := by simp [ids, unstable]
  have hp : IsPeak unstable 1 := by
    refine ⟨⟨0, by simp [hi], by rw [hc]; simp⟩, ?_⟩
    rintro a ⟨i, h, rfl⟩
    rw [hi] at h
    rw [Finset.mem_singleton.1 h, hc]; simp
  refine ⟨hs, ?_⟩
  rw [C226_form hs hp, hi, Finset.sum_singleton, hc]
  norm_num

end Verif.Newton
