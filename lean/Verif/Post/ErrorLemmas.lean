import Verif.Post.Spec
import Mathlib.Analysis.SpecialFunctions.Integrals.Basic
import Mathlib.Tactic.Linarith
import Mathlib.Tactic.Ring
import Mathlib.Tactic.FieldSimp

/-!
# Lemmas on the error of the displacement
-/

noncomputable section

namespace Verif.Post

open Verif Verif.Mech
open scoped Classical

/-- A fold that keeps the smaller number. -/
theorem lower_fold (c : Fin 3) (ns : List V3) (m : ℝ) :
    let r := ns.foldl (fun m n => if n c < m then n c else m) m
    r ≤ m ∧ (∀ n ∈ ns, r ≤ n c) ∧ (r = m ∨ ∃ n ∈ ns, r = n c) := by
  induction ns generalizing m with
  | nil => exact ⟨le_refl _, by simp, Or.inl rfl⟩
  | cons n ns ih =>
    obtain ⟨h1, h2, h3⟩ := ih (if n c < m then n c else m)
    simp only [List.foldl_cons]
    have hm : (if n c < m then n c else m) ≤ m ∧ (if n c < m then n c else m) ≤ n c := by
      split
      · rename_i h; exact ⟨h.le, le_refl _⟩
      · rename_i h; exact ⟨le_refl _, not_lt.mp h⟩
    refine ⟨h1.trans hm.1, ?_, ?_⟩
    · intro k hk
      rcases List.mem_cons.mp hk with rfl | hk
      · exact h1.trans hm.2
      · exact h2 k hk
    · rcases h3 with h3 | ⟨k, hk, h3⟩
      · rw [h3]
        split
        · exact Or.inr ⟨n, List.mem_cons_self, rfl⟩
        · exact Or.inl rfl
      · exact Or.inr ⟨k, List.mem_cons_of_mem _ hk, h3⟩

theorem upper_fold (c : Fin 3) (ns : List V3) (m : ℝ) :
    let r := ns.foldl (fun m n => if n c > m then n c else m) m
    m ≤ r ∧ (∀ n ∈ ns, n c ≤ r) ∧ (r = m ∨ ∃ n ∈ ns, r = n c) := by
  induction ns generalizing m with
  | nil => exact ⟨le_refl _, by simp, Or.inl rfl⟩
  | cons n ns ih =>
    obtain ⟨h1, h2, h3⟩ := ih (if n c > m then n c else m)
    simp only [List.foldl_cons]
    have hm : m ≤ (if n c > m then n c else m) ∧ n c ≤ (if n c > m then n c else m) := by
      split
      · rename_i h; exact ⟨h.le, le_refl _⟩
      · rename_i h; exact ⟨le_refl _, not_lt.mp h⟩
    refine ⟨hm.1.trans h1, ?_, ?_⟩
    · intro k hk
      rcases List.mem_cons.mp hk with rfl | hk
      · exact hm.2.trans h1
      · exact h2 k hk
    · rcases h3 with h3 | ⟨k, hk, h3⟩
      · rw [h3]
        split
        · exact Or.inr ⟨n, List.mem_cons_self, rfl⟩
        · exact Or.inl rfl
      · exact Or.inr ⟨k, List.mem_cons_of_mem _ hk, h3⟩

/-- The lower limit is the smallest coordinate. -/
theorem lower_eq {c : Fin 3} {ns : List V3} {v : ℝ} (h1 : ∀ n ∈ ns, v ≤ n c) (h2 : ∃ n ∈ ns, n c = v)
    (h3 : v ≤ dblMax) : lower c ns = v := by
  obtain ⟨_, e2, e3⟩ := lower_fold c ns dblMax
  obtain ⟨n, hn, rfl⟩ := h2
  refine le_antisymm (e2 n hn) ?_
  rcases e3 with e3 | ⟨k, hk, e3⟩
  · rw [lower, e3]; exact h3
  · rw [lower, e3]; exact h1 k hk

theorem upper_eq {c : Fin 3} {ns : List V3} {v : ℝ} (h1 : ∀ n ∈ ns, n c ≤ v) (h2 : ∃ n ∈ ns, n c = v)
    (h3 : -dblMax ≤ v) : upper c ns = v := by
  obtain ⟨_, e2, e3⟩ := upper_fold c ns (-dblMax)
  obtain ⟨n, hn, rfl⟩ := h2
  refine le_antisymm ?_ (e2 n hn)
  rcases e3 with e3 | ⟨k, hk, e3⟩
  · rw [upper, e3]; exact h3
  · rw [upper, e3]; exact h1 k hk

theorem numAt_eq (c : Fin 3) (ns : List V3) (v : ℝ) :
    numAt c ns v = ns.countP fun n => decide (|n c - v| < 1 / 10 ^ 10) := by
  have : ∀ k, ns.foldl (fun k n => if |n c - v| < 1 / 10 ^ 10 then k + 1 else k) k =
      k + ns.countP fun n => decide (|n c - v| < 1 / 10 ^ 10) := by
    induction ns with
    | nil => intro k; rfl
    | cons n ns ih =>
      intro k
      rw [List.foldl_cons, ih, List.countP_cons]
      by_cases h : |n c - v| < 1 / 10 ^ 10
      · simp only [h, if_true, decide_true]; omega
      · simp only [h, if_false, decide_false, Bool.false_eq_true]; omega
  rw [numAt, this, Nat.zero_add]

theorem mem_corners {a b n : V3} (h : n ∈ corners a b) (c : Fin 3) : n c = a c ∨ n c = b c := by
  simp only [corners, List.mem_cons, List.not_mem_nil, or_false] at h
  rcases h with rfl | rfl | rfl | rfl | rfl | rfl | rfl | rfl <;> fin_cases c <;> simp

theorem low_corner (a b : V3) : a ∈ corners a b := by
  simp only [corners, List.mem_cons]
  left
  funext c; fin_cases c <;> rfl

theorem high_corner (a b : V3) : b ∈ corners a b := by
  have : b = ![b 0, b 1, b 2] := by funext c; fin_cases c <;> rfl
  simp only [corners, List.mem_cons]
  right; right; right; right; right; right; left
  exact this

theorem box_limits {ns : List V3} {a b : V3} (h : IsBox ns a b) (c : Fin 3) :
    lower c ns = a c ∧ upper c ns = b c := by
  obtain ⟨hp, hc⟩ := h
  obtain ⟨h1, h2, h3⟩ := hc c
  refine ⟨lower_eq (fun n hn => ?_) ⟨a, hp.mem_iff.mpr (low_corner a b), rfl⟩ (le_of_abs_le h2),
    upper_eq (fun n hn => ?_) ⟨b, hp.mem_iff.mpr (high_corner a b), rfl⟩ (neg_le_of_abs_le h3)⟩
  · rcases mem_corners (hp.mem_iff.mp hn) c with e | e <;> rw [e]
    exact h1
  · rcases mem_corners (hp.mem_iff.mp hn) c with e | e <;> rw [e]
    exact h1

theorem count_corners (a b : V3) (c : Fin 3) (p : ℝ → Bool) :
    (corners a b).countP (fun n => p (n c)) = (if p (a c) then 4 else 0) + (if p (b c) then 4 else 0) := by
  fin_cases c <;> simp only [corners, List.countP_cons, List.countP_nil]
  · show _ = (if p (a 0) then 4 else 0) + (if p (b 0) then 4 else 0)
    cases h1 : p (a 0) <;> cases h2 : p (b 0) <;> simp [h1, h2]
  · show _ = (if p (a 1) then 4 else 0) + (if p (b 1) then 4 else 0)
    cases h1 : p (a 1) <;> cases h2 : p (b 1) <;> simp [h1, h2]
  · show _ = (if p (a 2) then 4 else 0) + (if p (b 2) then 4 else 0)
    cases h1 : p (a 2) <;> cases h2 : p (b 2) <;> simp [h1, h2]

/-- The number of corners at a limit: four, or all eight if the box is thin. -/
theorem box_count {ns : List V3} {a b : V3} (h : IsBox ns a b) (c : Fin 3) :
    (1 / 10 ^ 10 ≤ b c - a c → numAt c ns (a c) = 4 ∧ numAt c ns (b c) = 4) ∧
    (b c - a c < 1 / 10 ^ 10 → numAt c ns (a c) = 8) := by
  have hle := (h.2 c).1
  rw [numAt_eq, numAt_eq, h.1.countP_eq, h.1.countP_eq,
    count_corners a b c fun v => decide (|v - a c| < 1 / 10 ^ 10),
    count_corners a b c fun v => decide (|v - b c| < 1 / 10 ^ 10)]
  have e0 : ∀ v : ℝ, |v - v| < 1 / 10 ^ 10 := fun v => by rw [sub_self, abs_zero]; positivity
  constructor
  · intro hs
    have e1 : ¬ |b c - a c| < 1 / 10 ^ 10 := by rw [abs_of_nonneg (by linarith)]; exact not_lt.mpr hs
    have e2 : ¬ |a c - b c| < 1 / 10 ^ 10 := by rw [abs_sub_comm]; exact e1
    rw [decide_eq_true (e0 _), decide_eq_true (e0 _), decide_eq_false e1, decide_eq_false e2]
    exact ⟨rfl, rfl⟩
  · intro hs
    have e1 : |b c - a c| < 1 / 10 ^ 10 := by rw [abs_of_nonneg (by linarith)]; exact hs
    rw [decide_eq_true (e0 _), decide_eq_true e1]
    rfl

/-- The iterated integral. -/
theorem errorIntegral_eq (u a b : V3) : errorIntegral u a b =
    ((u 0 * u 0 + u 1 * u 1 + u 2 * u 2) * (b 0 - a 0) - 2 / 3 * u 0 * (b 0 ^ 3 - a 0 ^ 3) +
      1 / 5 * (b 0 ^ 5 - a 0 ^ 5)) * ((b 1 - a 1) * (b 2 - a 2)) := by
  unfold errorIntegral
  simp only [intervalIntegral.integral_const, smul_eq_mul]
  have e : ∀ s : ℝ, (b 1 - a 1) * ((b 2 - a 2) * ((u 0 - s ^ 2) ^ 2 + u 1 ^ 2 + u 2 ^ 2)) =
      ((b 1 - a 1) * (b 2 - a 2)) * ((u 0 ^ 2 + u 1 ^ 2 + u 2 ^ 2) + (-2 * u 0) * s ^ 2 + s ^ 4) := fun s => by ring
  simp only [e]
  rw [intervalIntegral.integral_const_mul, intervalIntegral.integral_add, intervalIntegral.integral_add,
    intervalIntegral.integral_const_mul, intervalIntegral.integral_const, integral_pow, integral_pow]
  · push_cast
    simp only [smul_eq_mul]
    ring
  · exact (continuous_const).intervalIntegrable _ _
  · exact (continuous_const.mul (continuous_pow 2)).intervalIntegrable _ _
  · exact (continuous_const.add (continuous_const.mul (continuous_pow 2))).intervalIntegrable _ _
  · exact (continuous_pow 4).intervalIntegrable _ _

theorem errorIntegral_nonneg (u a b : V3) (h : ∀ c, a c ≤ b c) : 0 ≤ errorIntegral u a b := by
  unfold errorIntegral
  refine intervalIntegral.integral_nonneg (h 0) fun s _ => ?_
  refine intervalIntegral.integral_nonneg (h 1) fun _ _ => ?_
  refine intervalIntegral.integral_nonneg (h 2) fun _ _ => ?_
  positivity

end Verif.Post
