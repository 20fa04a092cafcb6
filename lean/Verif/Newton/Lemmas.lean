import Verif.Newton.Spec
import Mathlib.Tactic.Linarith
import Mathlib.Tactic.Ring
import Mathlib.Algebra.Order.BigOperators.Ring.Finset

/-!
# Newton's iteration with damped tangents (lemmas)
-/

namespace Verif.Newton

open Verif

theorem localNormInf_nonneg (l : List ℝ) : 0 ≤ localNormInf l := by
  induction l with
  | nil => exact le_refl _
  | cons a l ih => exact le_max_of_le_right ih

theorem le_localNormInf {l : List ℝ} {a : ℝ} (h : a ∈ l) : |a| ≤ localNormInf l := by
  induction l with
  | nil => simp at h
  | cons b l ih =>
    rcases List.mem_cons.1 h with h | h
    · subst h; exact le_max_left _ _
    · exact (ih h).trans (le_max_right _ _)

theorem localNormInf_le {l : List ℝ} {m : ℝ} (h0 : 0 ≤ m) (h : ∀ a ∈ l, |a| ≤ m) :
    localNormInf l ≤ m := by
  induction l with
  | nil => exact h0
  | cons b l ih =>
    exact max_le (h b (List.mem_cons_self)) (ih fun a ha => h a (List.mem_cons_of_mem _ ha))

theorem normInf_eq (d : List (List ℝ)) : normInf d = localNormInf d.flatten := by
  apply le_antisymm
  · refine localNormInf_le (localNormInf_nonneg _) fun a ha => ?_
    obtain ⟨l, hl, rfl⟩ := List.mem_map.1 ha
    rw [abs_of_nonneg (localNormInf_nonneg _)]
    exact localNormInf_le (localNormInf_nonneg _) fun b hb =>
      le_localNormInf (List.mem_flatten.2 ⟨l, hl, hb⟩)
  · refine localNormInf_le (localNormInf_nonneg _) fun a ha => ?_
    obtain ⟨l, hl, hb⟩ := List.mem_flatten.1 ha
    have h1 := le_localNormInf hb
    have h2 := le_localNormInf (List.mem_map.2 ⟨l, hl, rfl⟩ : localNormInf l ∈ d.map localNormInf)
    rw [abs_of_nonneg (localNormInf_nonneg _)] at h2
    exact h1.trans h2

theorem localNormInf_perm {l l' : List ℝ} (h : l.Perm l') : localNormInf l = localNormInf l' :=
  le_antisymm (localNormInf_le (localNormInf_nonneg _) fun _ ha => le_localNormInf (h.mem_iff.1 ha))
    (localNormInf_le (localNormInf_nonneg _) fun _ ha => le_localNormInf (h.mem_iff.2 ha))

/-- The norm used for damping. -/
noncomputable def dampNorm (scale : ℝ) (A : Mat) : ℝ :=
  localNormInf (A.flatten.map fun r => scale * r.diagonal)

theorem damp_flatten (scale shift : ℝ) (A : Mat) :
    (damp scale shift A).flatten = A.flatten.map fun r =>
      r.replaceDiagonal (scale * r.diagonal + shift * dampNorm scale A) := by
  unfold damp dampNorm
  simp only [normInf_eq]
  rw [← List.map_flatten, ← List.map_flatten]

theorem damp_gids (scale shift : ℝ) (A : Mat) :
    (damp scale shift A).flatten.map Row.gid = A.flatten.map Row.gid := by
  rw [damp_flatten, List.map_map]; rfl

theorem damp_ids (scale shift : ℝ) (A : Mat) : ids (damp scale shift A) = ids A := by
  unfold ids; rw [damp_gids]

theorem mem_ids {A : Mat} {i : Nat} : i ∈ ids A ↔ ∃ r ∈ A.flatten, r.gid = i := by
  unfold ids; rw [List.mem_toFinset, List.mem_map]

theorem find_row {A : Mat} (h : (A.flatten.map Row.gid).Nodup) {r : Row} (hr : r ∈ A.flatten) :
    A.flatten.find? (fun q => q.gid == r.gid) = some r := by
  generalize A.flatten = l at h hr
  induction l with
  | nil => simp at hr
  | cons q l ih =>
    rw [List.map_cons, List.nodup_cons] at h
    rcases List.mem_cons.1 hr with rfl | hr'
    · simp
    · have : q.gid ≠ r.gid := fun e => h.1 (e ▸ List.mem_map.2 ⟨r, hr', rfl⟩)
      rw [List.find?_cons_of_neg (by simpa using this)]
      exact ih h.2 hr'

theorem coeff_row {A : Mat} (h : (A.flatten.map Row.gid).Nodup) {r : Row} (hr : r ∈ A.flatten)
    (j : Nat) : coeff A r.gid j = (r.entry j).getD 0 := by
  unfold coeff; rw [find_row h hr]

theorem coeff_off {A : Mat} {i : Nat} (hi : i ∉ ids A) (j : Nat) : coeff A i j = 0 := by
  unfold coeff
  rw [List.find?_eq_none.2]
  intro r hr e
  exact hi (mem_ids.2 ⟨r, hr, by simpa using e⟩)

theorem damp_once {scale shift : ℝ} {A : Mat} (h : (A.flatten.map Row.gid).Nodup) :
    ((damp scale shift A).flatten.map Row.gid).Nodup := by rwa [damp_gids]

theorem damp_coeff_norm {scale shift : ℝ} {A : Mat} (h : Sound A) {i : Nat} (hi : i ∈ ids A) (j : Nat) :
    coeff (damp scale shift A) i j =
      if j = i then scale * coeff A i i + shift * dampNorm scale A else coeff A i j := by
  obtain ⟨r, hr, rfl⟩ := mem_ids.1 hi
  have hr' : r.replaceDiagonal (scale * r.diagonal + shift * dampNorm scale A)
      ∈ (damp scale shift A).flatten := by
    rw [damp_flatten]; exact List.mem_map.2 ⟨r, hr, rfl⟩
  have e := coeff_row (damp_once (scale := scale) (shift := shift) h.once) hr' j
  rw [show (r.replaceDiagonal (scale * r.diagonal + shift * dampNorm scale A)).gid = r.gid from rfl] at e
  rw [e, coeff_row h.once hr, coeff_row h.once hr]
  unfold Row.replaceDiagonal
  by_cases hj : j = r.gid
  · subst hj
    obtain ⟨v, hv⟩ := Option.isSome_iff_exists.1 (h.whole r hr)
    simp [hv, Row.diagonal]
  · simp [hj]

theorem dampNorm_eq {scale : ℝ} {A : Mat} {m : ℝ} (h : Sound A) (hm : IsPeak A m) :
    dampNorm scale A = |scale| * m := by
  have hd : ∀ r ∈ A.flatten, r.diagonal = coeff A r.gid r.gid := fun r hr =>
    (coeff_row h.once hr _).symm
  obtain ⟨⟨i, hi, e⟩, hub⟩ := hm
  have hm0 : 0 ≤ m := by rw [e]; exact abs_nonneg _
  apply le_antisymm
  · refine localNormInf_le (mul_nonneg (abs_nonneg _) hm0) fun a ha => ?_
    obtain ⟨r, hr, rfl⟩ := List.mem_map.1 ha
    rw [abs_mul, hd r hr]
    exact mul_le_mul_of_nonneg_left (hub ⟨r.gid, mem_ids.2 ⟨r, hr, rfl⟩, rfl⟩) (abs_nonneg _)
  · obtain ⟨r, hr, rfl⟩ := mem_ids.1 hi
    rw [e, ← abs_mul, ← hd r hr]
    exact le_localNormInf (List.mem_map.2 ⟨r, hr, rfl⟩)

end Verif.Newton
