import Verif.Needleman.Spec
import Verif.Correspondence.StressLemmas
import Mathlib.Topology.Order.IntermediateValue
import Mathlib.Analysis.SpecialFunctions.Pow.Continuity

/-! The bisection. -/

noncomputable section

namespace Verif.Needleman

open Verif Verif.Neigh Verif.Mech Verif.Tensor Verif.Correspondence Matrix
open scoped Classical

variable {f : ℝ → Outcome ℝ} {g : ℝ → ℝ}

theorem halve_eq (hf : ∀ x, 0 < x → x ≤ 1 → f x = .ok (g x)) {a b : ℝ} (ha : 0 ≤ a) (hab : a < b) (hb : b ≤ 1) :
    halve f a b ((a + b) / 2) = .ok (a, (a + b) / 2) ∧ (0 < g b ∧ 0 < g ((a + b) / 2) ∨
        g b < 0 ∧ g ((a + b) / 2) < 0) ∨
      halve f a b ((a + b) / 2) = .ok ((a + b) / 2, b) ∧ ¬ (0 < g b ∧ 0 < g ((a + b) / 2)) ∧
        ¬ (g b < 0 ∧ g ((a + b) / 2) < 0) := by
  unfold halve
  rw [hf b (by linarith) hb, hf ((a + b) / 2) (by linarith) (by linarith)]
  simp only [Outcome.ok_bind]
  by_cases h1 : 0 < g b ∧ 0 < g ((a + b) / 2)
  · rw [if_pos h1]
    exact .inl ⟨rfl, .inl h1⟩
  · rw [if_neg h1]
    by_cases h2 : g b < 0 ∧ g ((a + b) / 2) < 0
    · rw [if_pos h2]
      exact .inl ⟨rfl, .inr h2⟩
    · rw [if_neg h2]
      exact .inr ⟨rfl, h1, h2⟩

/-- One pass. -/
theorem bisect_succ {a b a' b' : ℝ} (n : Nat) {c : ℝ} (h : halve f a b c = .ok (a', b')) (hpos : 0 < a' + b') :
    bisect f (n + 1) a b c =
      if |(a' + b') / 2 - c| / ((a' + b') / 2) < 1 / 10 ^ 6 then .ok ⟨(a' + b') / 2, true⟩
      else bisect f n a' b' ((a' + b') / 2) := by
  rw [bisect, h]
  simp only [Outcome.ok_bind]
  rw [if_neg (by rw [abs_eq_zero]; linarith), abs_of_pos (by linarith : 0 < (a' + b') / 2)]

/-- The result always lies in the interval. -/
theorem bisect_range (hf : ∀ x, 0 < x → x ≤ 1 → f x = .ok (g x)) : ∀ (n : Nat) {a b : ℝ}, 0 ≤ a → a < b → b ≤ 1 →
    ∃ r, bisect f n a b ((a + b) / 2) = .ok r ∧ a < r.value ∧ r.value < b
  | 0, a, b, ha, hab, hb => ⟨_, rfl, by show a < (a + b) / 2; linarith, by show (a + b) / 2 < b; linarith⟩
  | n + 1, a, b, ha, hab, hb => by
    rcases halve_eq hf ha hab hb with ⟨h, -⟩ | ⟨h, -⟩
    · rw [bisect_succ n h (by linarith)]
      split
      · exact ⟨_, rfl, by show a < (a + (a + b) / 2) / 2; linarith, by show (a + (a + b) / 2) / 2 < b; linarith⟩
      · obtain ⟨r, hr, h1, h2⟩ := bisect_range hf n ha (show a < (a + b) / 2 by linarith) (by linarith)
        exact ⟨r, hr, h1, by linarith⟩
    · rw [bisect_succ n h (by linarith)]
      split
      · exact ⟨_, rfl, by show a < ((a + b) / 2 + b) / 2; linarith, by show ((a + b) / 2 + b) / 2 < b; linarith⟩
      · obtain ⟨r, hr, h1, h2⟩ := bisect_range hf n (show 0 ≤ (a + b) / 2 by linarith)
          (show (a + b) / 2 < b by linarith) hb
        exact ⟨r, hr, by linarith, h2⟩

/-- There is a root in the interval, or at its upper end. -/
def Bracket (g : ℝ → ℝ) (a b : ℝ) : Prop := (0 ≤ g a ∧ g b < 0) ∨ g b = 0

theorem Bracket.root {a b : ℝ} (h : Bracket g a b) (hab : a < b) (hg : ContinuousOn g (Set.Icc a b)) :
    ∃ r, a ≤ r ∧ r ≤ b ∧ g r = 0 := by
  rcases h with ⟨h1, h2⟩ | h
  · obtain ⟨r, hr, h0⟩ := intermediate_value_Icc' hab.le hg ⟨h2.le, h1⟩
    exact ⟨r, hr.1, hr.2, h0⟩
  · exact ⟨b, hab.le, le_refl _, h⟩

theorem bracket_halve (hf : ∀ x, 0 < x → x ≤ 1 → f x = .ok (g x)) {a b : ℝ} (ha : 0 ≤ a) (hab : a < b) (hb : b ≤ 1)
    (h : Bracket g a b) :
    (halve f a b ((a + b) / 2) = .ok (a, (a + b) / 2) ∧ Bracket g a ((a + b) / 2) ∧ g ((a + b) / 2) < 0) ∨
      (halve f a b ((a + b) / 2) = .ok ((a + b) / 2, b) ∧ Bracket g ((a + b) / 2) b) := by
  rcases halve_eq hf ha hab hb with ⟨h1, h2 | h2⟩ | ⟨h1, h2, h3⟩
  · rcases h with ⟨_, h⟩ | h <;> linarith [h2.1]
  · rcases h with ⟨h, _⟩ | h
    · exact .inl ⟨h1, .inl ⟨h, h2.2⟩, h2.2⟩
    · linarith [h2.1]
  · refine .inr ⟨h1, ?_⟩
    rcases h with ⟨h, hb'⟩ | h
    · left
      refine ⟨?_, hb'⟩
      by_contra hc
      push Not at hc
      exact h3 ⟨hb', hc⟩
    · exact .inr h

/-- If the bisection stops by itself, its result is close to a root. -/
theorem bisect_root (hf : ∀ x, 0 < x → x ≤ 1 → f x = .ok (g x)) (hg : ContinuousOn g (Set.Icc 0 1)) :
    ∀ (n : Nat) {a b : ℝ} {r : Root}, 0 ≤ a → a < b → b ≤ 1 → Bracket g a b →
      bisect f n a b ((a + b) / 2) = .ok r → r.converged = true →
      ∃ x, a ≤ x ∧ x ≤ b ∧ g x = 0 ∧ |r.value - x| ≤ 1 / 10 ^ 6 * r.value
  | 0, a, b, r, _, _, _, _, h, hc => by
    cases h
    exact absurd hc (by simp)
  | n + 1, a, b, r, ha, hab, hb, hB, h, hc => by
    rcases bracket_halve hf ha hab hb hB with ⟨h1, hB', -⟩ | ⟨h1, hB'⟩
    · rw [bisect_succ n h1 (by linarith)] at h
      split at h
      · rename_i hd
        cases h
        obtain ⟨x, hx1, hx2, hx⟩ := hB'.root (by linarith) (hg.mono (Set.Icc_subset_Icc ha (by linarith)))
        refine ⟨x, hx1, by linarith, hx, ?_⟩
        rw [div_lt_iff₀ (by linarith)] at hd
        refine le_trans ?_ hd.le
        show |(a + (a + b) / 2) / 2 - x| ≤ _
        rw [abs_of_nonpos (show (a + (a + b) / 2) / 2 - (a + b) / 2 ≤ 0 by linarith), abs_le]
        constructor <;> linarith
      · obtain ⟨x, hx1, hx2, hx⟩ := bisect_root hf hg n ha (show a < (a + b) / 2 by linarith) (by linarith) hB' h hc
        exact ⟨x, hx1, by linarith, hx⟩
    · rw [bisect_succ n h1 (by linarith)] at h
      split at h
      · rename_i hd
        cases h
        obtain ⟨x, hx1, hx2, hx⟩ := hB'.root (by linarith) (hg.mono (Set.Icc_subset_Icc (by linarith) hb))
        refine ⟨x, by linarith, hx2, hx, ?_⟩
        rw [div_lt_iff₀ (by linarith)] at hd
        refine le_trans ?_ hd.le
        show |((a + b) / 2 + b) / 2 - x| ≤ _
        rw [abs_of_nonneg (show 0 ≤ ((a + b) / 2 + b) / 2 - (a + b) / 2 by linarith), abs_le]
        constructor <;> linarith
      · obtain ⟨x, hx1, hx2, hx⟩ := bisect_root hf hg n (show 0 ≤ (a + b) / 2 by linarith)
          (show (a + b) / 2 < b by linarith) hb hB' h hc
        exact ⟨x, by linarith, hx2, hx⟩

/-- The bisection stops by itself if the smallest root is not too small for the passes that are left. -/
theorem bisect_converges (hf : ∀ x, 0 < x → x ≤ 1 → f x = .ok (g x)) {s : ℝ} (hs : 0 < s)
    (hp : ∀ x, 0 < x → x < s → 0 < g x) :
    ∀ (n : Nat) {a b : ℝ}, 0 ≤ a → a < b → b ≤ 1 → Bracket g a b → s ≤ b →
      b - a < 2 / 10 ^ 6 * s * 2 ^ n →
      ∃ v, bisect f (n + 1) a b ((a + b) / 2) = .ok ⟨v, true⟩
  | 0, a, b, ha, hab, hb, hB, hsb, hw => by
    rcases bracket_halve hf ha hab hb hB with ⟨h1, hB', hneg⟩ | ⟨h1, hB'⟩
    · have hs' : s ≤ (a + b) / 2 := by
        by_contra hlt
        push Not at hlt
        linarith [hp _ (show 0 < (a + b) / 2 by linarith) hlt]
      rw [bisect_succ 0 h1 (by linarith), if_pos]
      · exact ⟨_, rfl⟩
      · rw [div_lt_iff₀ (by linarith), abs_of_nonpos (show (a + (a + b) / 2) / 2 - (a + b) / 2 ≤ 0 by linarith)]
        rw [pow_zero] at hw
        linarith
    · rw [bisect_succ 0 h1 (by linarith), if_pos]
      · exact ⟨_, rfl⟩
      · rw [div_lt_iff₀ (by linarith), abs_of_nonneg (show 0 ≤ ((a + b) / 2 + b) / 2 - (a + b) / 2 by linarith)]
        rw [pow_zero] at hw
        linarith
  | n + 1, a, b, ha, hab, hb, hB, hsb, hw => by
    rw [pow_succ (2 : ℝ) n] at hw
    rcases bracket_halve hf ha hab hb hB with ⟨h1, hB', hneg⟩ | ⟨h1, hB'⟩
    · have hs' : s ≤ (a + b) / 2 := by
        by_contra hlt
        push Not at hlt
        linarith [hp _ (show 0 < (a + b) / 2 by linarith) hlt]
      rw [bisect_succ (n + 1) h1 (by linarith)]
      split
      · exact ⟨_, rfl⟩
      · exact bisect_converges hf hs hp n ha (by linarith) (by linarith) hB' hs' (by linarith)
    · rw [bisect_succ (n + 1) h1 (by linarith)]
      split
      · exact ⟨_, rfl⟩
      · exact bisect_converges hf hs hp n (by linarith) (by linarith) hb hB' hsb (by linarith)

/-- Without a change of sign the bisection runs to zero and never stops by itself. -/
theorem bisect_runaway (hf : ∀ x, 0 < x → x ≤ 1 → f x = .ok (g x))
    (hg : (∀ x, 0 < x → x ≤ 1 → 0 < g x) ∨ (∀ x, 0 < x → x ≤ 1 → g x < 0)) :
    ∀ (n : Nat) {b : ℝ}, 0 < b → b ≤ 1 → bisect f n 0 b ((0 + b) / 2) = .ok ⟨b / 2 / 2 ^ n, false⟩
  | 0, b, hb0, hb => by
    rw [bisect]
    simp
  | n + 1, b, hb0, hb => by
    have h : halve f 0 b ((0 + b) / 2) = .ok (0, (0 + b) / 2) := by
      rcases halve_eq hf (le_refl 0) hb0 hb with ⟨h, -⟩ | ⟨-, h1, h2⟩
      · exact h
      · rcases hg with hg | hg
        · exact absurd ⟨hg _ hb0 hb, hg _ (by linarith) (by linarith)⟩ h1
        · exact absurd ⟨hg _ hb0 hb, hg _ (by linarith) (by linarith)⟩ h2
    rw [bisect_succ n h (by linarith), if_neg]
    · rw [bisect_runaway hf hg n (show 0 < (0 + b) / 2 by linarith) (by linarith)]
      congr 2
      rw [pow_succ, zero_add]
      field_simp
    · rw [div_lt_iff₀ (by linarith), abs_of_nonpos (by linarith)]
      push Not
      linarith

end Verif.Needleman
