import Verif.Deck.Lemmas
import Mathlib.Tactic.Positivity
import Mathlib.Tactic.NormNum
import Mathlib.Algebra.Order.Floor.Ring
import Mathlib.Algebra.Ring.Int.Parity

/-!
# Lemmas on numbers written with six digits
-/

noncomputable section

namespace Verif.Deck

open Verif

theorem roundEven_near (q : ℝ) :
    |(roundEven q : ℝ) - q| ≤ 1 / 2 ∧ (|(roundEven q : ℝ) - q| = 1 / 2 → Even (roundEven q)) := by
  have h1 := Int.floor_le q
  have h2 := Int.lt_floor_add_one q
  unfold roundEven
  split
  · rename_i h
    constructor
    · rw [abs_le]; constructor <;> linarith
    · intro h'
      rw [abs_sub_comm, abs_of_nonneg (by linarith)] at h'
      linarith
  · split
    · rename_i h
      constructor
      · push_cast; rw [abs_le]; constructor <;> linarith
      · intro h'
        push_cast at h'
        rw [abs_of_nonneg (by linarith)] at h'
        linarith
    · split
      · rename_i h h' he
        exact ⟨by rw [abs_le]; constructor <;> linarith, fun _ => he⟩
      · rename_i h h' he
        refine ⟨by push_cast; rw [abs_le]; constructor <;> linarith, fun _ => ?_⟩
        exact Int.even_add_one.mpr he

theorem near_unique {q : ℝ} {m n : Int} (hm : |(m : ℝ) - q| ≤ 1 / 2) (hm' : |(m : ℝ) - q| = 1 / 2 → Even m)
    (hn : |(n : ℝ) - q| ≤ 1 / 2) (hn' : |(n : ℝ) - q| = 1 / 2 → Even n) : m = n := by
  wlog h : m ≤ n generalizing m n
  · exact (this hn hn' hm hm' (by omega)).symm
  rcases h.eq_or_lt with h | h
  · exact h
  exfalso
  rw [abs_le] at hm hn
  have h1 : (m : ℝ) + 1 ≤ n := by exact_mod_cast h
  have h2 : (m : ℝ) - q = -(1 / 2) := by linarith
  have h3 : (n : ℝ) - q = 1 / 2 := by linarith
  have e1 := hm' (by rw [h2]; norm_num)
  have e2 := hn' (by rw [h3]; norm_num)
  have h4 : n = m + 1 := by
    have : (n : ℝ) = m + 1 := by linarith
    exact_mod_cast this
  rw [h4] at e2
  exact (Int.even_add_one.mp e2) e1

theorem roundEven_int (k : Int) : roundEven (k : ℝ) = k := by
  have := roundEven_near (k : ℝ)
  exact near_unique this.1 this.2 (by simp) (by simp)

theorem roundEven_neg (q : ℝ) : roundEven (-q) = -roundEven q := by
  have h1 := roundEven_near (-q)
  have h2 := roundEven_near q
  refine near_unique h1.1 h1.2 ?_ ?_
  · push_cast
    rw [show -(roundEven q : ℝ) - -q = -((roundEven q : ℝ) - q) by ring, abs_neg]
    exact h2.1
  · intro h
    push_cast at h
    rw [show -(roundEven q : ℝ) - -q = -((roundEven q : ℝ) - q) by ring, abs_neg] at h
    exact (h2.2 h).neg

/-- Without the case distinction by the sign. -/
theorem printed_eq {r : ℝ} (h : r ≠ 0) :
    printed r = roundEven (r / (10 : ℝ) ^ (Int.log 10 |r| - 5)) * (10 : ℝ) ^ (Int.log 10 |r| - 5) := by
  rw [printed, if_neg h]
  by_cases hr : r < 0
  · rw [if_pos hr]
    have : r / (10 : ℝ) ^ (Int.log 10 |r| - 5) = -(|r| / (10 : ℝ) ^ (Int.log 10 |r| - 5)) := by
      rw [abs_of_neg hr]; ring
    rw [this, roundEven_neg]
    push_cast; ring
  · rw [if_neg hr, abs_of_nonneg (not_lt.mp hr)]; ring

theorem log_bounds {r : ℝ} (h : r ≠ 0) :
    (10 : ℝ) ^ (Int.log 10 |r|) ≤ |r| ∧ |r| < (10 : ℝ) ^ (Int.log 10 |r| + 1) := by
  have hp : 0 < |r| := abs_pos.mpr h
  have h1 := Int.zpow_log_le_self (b := 10) (by norm_num) hp
  have h2 := Int.lt_zpow_succ_log_self (b := 10) (by norm_num) |r|
  exact ⟨by exact_mod_cast h1, by exact_mod_cast h2⟩

theorem scaled_diff (m : Int) (r : ℝ) (e : Int) :
    |(m : ℝ) * (10 : ℝ) ^ e - r| = |(m : ℝ) - r / (10 : ℝ) ^ e| * (10 : ℝ) ^ e := by
  have hp : (0 : ℝ) < (10 : ℝ) ^ e := by positivity
  rw [← abs_of_pos hp, ← abs_mul, abs_of_pos hp]
  congr 1
  field_simp

theorem near_scaled {m : Int} {r : ℝ} {e : Int} :
    |(m : ℝ) * (10 : ℝ) ^ e - r| ≤ (10 : ℝ) ^ e / 2 ↔ |(m : ℝ) - r / (10 : ℝ) ^ e| ≤ 1 / 2 := by
  have hp : (0 : ℝ) < (10 : ℝ) ^ e := by positivity
  rw [scaled_diff]
  constructor <;> intro h <;> nlinarith

theorem tie_scaled {m : Int} {r : ℝ} {e : Int} :
    |(m : ℝ) * (10 : ℝ) ^ e - r| = (10 : ℝ) ^ e / 2 ↔ |(m : ℝ) - r / (10 : ℝ) ^ e| = 1 / 2 := by
  have hp : (0 : ℝ) < (10 : ℝ) ^ e := by positivity
  rw [scaled_diff]
  constructor
  · intro h
    have : |(m : ℝ) - r / (10 : ℝ) ^ e| * (10 : ℝ) ^ e = 1 / 2 * (10 : ℝ) ^ e := by rw [h]; ring
    exact mul_right_cancel₀ hp.ne' this
  · intro h; rw [h]; ring

theorem scaled_bounds {r : ℝ} (h : r ≠ 0) :
    (10 : ℝ) ^ 5 ≤ |r / (10 : ℝ) ^ (Int.log 10 |r| - 5)| ∧ |r / (10 : ℝ) ^ (Int.log 10 |r| - 5)| < (10 : ℝ) ^ 6 := by
  obtain ⟨h1, h2⟩ := log_bounds h
  generalize Int.log 10 |r| = L at *
  have hp : (0 : ℝ) < (10 : ℝ) ^ (L - 5) := by positivity
  rw [abs_div, abs_of_pos hp]
  constructor
  · rw [le_div_iff₀ hp]
    calc (10 : ℝ) ^ 5 * (10 : ℝ) ^ (L - 5) = (10 : ℝ) ^ L := by
          rw [← zpow_natCast, ← zpow_add₀ (by norm_num)]; congr 1; push_cast; ring
      _ ≤ |r| := h1
  · rw [div_lt_iff₀ hp]
    calc |r| < (10 : ℝ) ^ (L + 1) := h2
      _ = (10 : ℝ) ^ 6 * (10 : ℝ) ^ (L - 5) := by
          rw [← zpow_natCast, ← zpow_add₀ (by norm_num)]; congr 1; push_cast; ring

theorem roundEven_bound {q : ℝ} (h : |q| < (10 : ℝ) ^ 6) : |roundEven q| ≤ 10 ^ 6 := by
  have h1 := (roundEven_near q).1
  rw [abs_le] at h1
  rw [abs_lt] at h
  have h2 : ((roundEven q : Int) : ℝ) < ((10 ^ 6 + 1 : Int) : ℝ) := by push_cast; linarith
  have h3 : ((-(10 ^ 6 + 1) : Int) : ℝ) < ((roundEven q : Int) : ℝ) := by push_cast; linarith
  have h2' : roundEven q < 10 ^ 6 + 1 := by exact_mod_cast h2
  have h3' : -(10 ^ 6 + 1) < roundEven q := by exact_mod_cast h3
  rw [abs_le]; constructor <;> omega

theorem printed_six (r : ℝ) : SixDigits r (printed r) := by
  by_cases h : r = 0
  · exact Or.inl ⟨h, by rw [printed, if_pos h]⟩
  right
  have hb := log_bounds h
  refine ⟨roundEven (r / (10 : ℝ) ^ (Int.log 10 |r| - 5)), Int.log 10 |r| - 5, printed_eq h,
    roundEven_bound (scaled_bounds h).2, ?_, ?_, ?_, ?_⟩
  · rw [show Int.log 10 |r| - 5 + 5 = Int.log 10 |r| by ring]; exact hb.1
  · rw [show Int.log 10 |r| - 5 + 6 = Int.log 10 |r| + 1 by ring]; exact hb.2
  · rw [printed_eq h]; exact near_scaled.mpr (roundEven_near _).1
  · rw [printed_eq h]; exact fun h' => (roundEven_near _).2 (tie_scaled.mp h')

theorem six_unique {r q : ℝ} (hq : SixDigits r q) : q = printed r := by
  have hp := printed_six r
  rcases hq with ⟨h1, h2⟩ | ⟨m, e, h1, -, h3, h4, h5, h6⟩
  · rw [h2, printed, if_pos h1]
  have hr : r ≠ 0 := by
    rintro rfl
    rw [abs_zero] at h3
    have : (0 : ℝ) < (10 : ℝ) ^ (e + 5) := by positivity
    linarith
  rcases hp with ⟨h, -⟩ | ⟨n, e', g1, -, g3, g4, g5, g6⟩
  · exact absurd h hr
  have l1 : e + 5 < e' + 6 := (zpow_lt_zpow_iff_right₀ (by norm_num : (1 : ℝ) < 10)).mp (h3.trans_lt g4)
  have l2 : e' + 5 < e + 6 := (zpow_lt_zpow_iff_right₀ (by norm_num : (1 : ℝ) < 10)).mp (g3.trans_lt h4)
  have he : e = e' := by omega
  subst he
  rw [h1] at h5 h6
  rw [g1] at g5 g6
  rw [h1, g1, near_unique (near_scaled.mp h5) (fun h => h6 (tie_scaled.mpr h)) (near_scaled.mp g5)
    (fun h => g6 (tie_scaled.mpr h))]

theorem printed_error (r : ℝ) : |printed r - r| ≤ 5 / 10 ^ 6 * |r| := by
  rcases printed_six r with ⟨h1, h2⟩ | ⟨m, e, -, -, h3, -, h5, -⟩
  · rw [h2, h1]; simp
  · refine h5.trans ?_
    rw [zpow_add₀ (by norm_num)] at h3
    have : ((10 : ℝ) ^ (5 : Int)) = 100000 := by norm_num
    rw [this] at h3
    linarith

theorem printed_short {r : ℝ} : printed r = r ↔ Short r := by
  constructor
  · intro h
    rcases printed_six r with ⟨h1, -⟩ | ⟨m, e, h1, h2, -⟩
    · exact ⟨0, 0, by norm_num, by rw [h1]; simp⟩
    · rw [h] at h1
      rcases h2.lt_or_eq with h2 | h2
      · exact ⟨m, e, h2, h1⟩
      · rcases abs_eq (by norm_num : (0 : Int) ≤ 10 ^ 6) |>.mp h2 with hm | hm
        · refine ⟨10 ^ 5, e + 1, by norm_num, ?_⟩
          rw [h1, hm, zpow_add₀ (by norm_num)]; push_cast; ring
        · refine ⟨-10 ^ 5, e + 1, by norm_num, ?_⟩
          rw [h1, hm, zpow_add₀ (by norm_num)]; push_cast; ring
  · rintro ⟨m, e, hm, hr⟩
    by_cases h0 : r = 0
    · rw [printed, if_pos h0, h0]
    have hb := scaled_bounds h0
    rw [printed_eq h0]
    generalize Int.log 10 |r| - 5 = e' at *
    have hp' : (0 : ℝ) < (10 : ℝ) ^ e' := by positivity
    have hq : r / (10 : ℝ) ^ e' = m * (10 : ℝ) ^ (e - e') := by
      rw [hr, zpow_sub₀ (by norm_num)]; ring
    rcases le_or_gt e' e with hle | hlt
    · obtain ⟨k, hk⟩ := Int.eq_ofNat_of_zero_le (sub_nonneg.mpr hle)
      have hi : r / (10 : ℝ) ^ e' = ((m * 10 ^ k : Int) : ℝ) := by
        rw [hq, hk]; push_cast; rfl
      rw [hi, roundEven_int, ← hi]
      field_simp
    · exfalso
      obtain ⟨k, hk⟩ := Int.eq_ofNat_of_zero_le (show 0 ≤ e' - e - 1 by omega)
      have hm' : |(m : ℝ)| < 10 ^ 6 := by exact_mod_cast hm
      rw [hq, abs_mul, abs_of_pos (by positivity : (0 : ℝ) < (10 : ℝ) ^ (e - e'))] at hb
      have h10 : (10 : ℝ) ^ (e - e') ≤ (10 : ℝ) ^ (-1 : Int) :=
        zpow_le_zpow_right₀ (by norm_num) (by omega)
      have : (10 : ℝ) ^ (-1 : Int) = 1 / 10 := by norm_num
      rw [this] at h10
      have hp : (0 : ℝ) < (10 : ℝ) ^ (e - e') := by positivity
      nlinarith [abs_nonneg (m : ℝ)]

end Verif.Deck
