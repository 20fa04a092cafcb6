import Verif.Outputs.GlobalLemmas
import Mathlib.Tactic.NormNum

/-! C54, C93: momentum. -/

noncomputable section

namespace Verif.Outputs

open Verif Verif.Neigh Verif.Mech
open scoped Classical

/-- One point of mass one, at height one, with the given velocity in the direction of the first axis. -/
def mover (u : ℝ) : State :=
  { owned := 1, list := [0], density := 1, bulk := 1, shear := 1, vol := fun _ => 1, x := fun _ => ![0, 0, 1],
    y := fun _ => ![0, 0, 1], v := fun _ => ![u, 0, 0], w := fun _ => 1, theta := fun _ => 0 }

theorem mover_momentum (u : ℝ) : sumBlock momentum [mover u] = ![u, 0, 0] := by
  funext c
  fin_cases c <;> simp [sumBlock, momentum, mover, State.mass, List.range_succ]

theorem mover_moment (u : ℝ) : sumBlock moment [mover u] = ![0, u, 0] := by
  funext c
  rw [sumBlock]
  simp only [List.map_cons, List.map_nil, List.sum_cons, List.sum_nil, add_zero, mover, List.range_one, moment,
    State.mass, cross_apply]
  fin_cases c <;> simp

theorem len_axis (u : ℝ) (hu : 0 ≤ u) : len ![u, 0, 0] = u ∧ len ![0, u, 0] = u := by
  constructor <;> simp [len, Real.sqrt_mul_self hu]

theorem len_axis_neg (u : ℝ) (hu : 0 ≤ u) : len ![-u, 0, 0] = u ∧ len ![0, -u, 0] = u := by
  constructor <;> simp [len, Real.sqrt_mul_self hu]

/-- C54 for a single block: the output is the length of the total momentum, for any distribution over
processors.  Missing: several blocks, where it is false, see `C54_blocks_wrong`. -/
theorem C54_linear_partial {b : List State} (hb : b ≠ []) :
    globalLinearMomentum [b] = .ok (len (sumPoints momentum [b])) := by
  rw [globalLinearMomentum, linear_eq, globalMomentum_eq momentum (by simpa using hb)]
  simp [sumPoints]

/-- Two processors, with one point each. -/
example : globalLinearMomentum [[mover 1, mover 2]] = .ok 3 := by
  rw [C54_linear_partial (by simp)]
  have : sumPoints momentum [[mover 1, mover 2]] = ![3, 0, 0] := by
    funext c
    fin_cases c <;> simp [sumPoints, sumBlock, momentum, mover, State.mass, List.range_succ]
    norm_num
  rw [this, (len_axis 3 (by norm_num)).1]

/-- C54 for a single block: the output is the length of the total moment of momentum.  Missing: several
blocks, see `C54_blocks_wrong`. -/
theorem C54_angular_partial {b : List State} (hb : b ≠ []) :
    globalAngularMomentum [b] = .ok (len (sumPoints moment [b])) := by
  have e : sumBlock State.angular b = -sumBlock moment b := by
    funext c
    have hs : ∀ l : List Nat, ∀ s : State, (l.map (s.angular)).sum = -(l.map (moment s)).sum := by
      intro l s
      induction l with
      | nil => simp
      | cons i l ih => rw [List.map_cons, List.sum_cons, List.map_cons, List.sum_cons, ih, angular_eq, neg_add]
    have hb : ∀ l : List State, (l.map fun s => ((List.range s.owned).map (s.angular)).sum).sum =
        -(l.map fun s => ((List.range s.owned).map (moment s)).sum).sum := by
      intro l
      induction l with
      | nil => simp
      | cons s l ih => rw [List.map_cons, List.sum_cons, List.map_cons, List.sum_cons, ih, hs, neg_add]
    rw [sumBlock, hb b]
    rfl
  rw [globalAngularMomentum, globalMomentum_eq State.angular (by simpa using hb)]
  simp [sumPoints, e, len_neg]

example : globalAngularMomentum [[mover 1]] = .ok 1 := by
  rw [C54_angular_partial (by simp)]
  have : sumPoints moment [[mover 1]] = ![0, 1, 0] := by
    rw [sumPoints]
    simpa using mover_moment 1
  rw [this, (len_axis 1 (by norm_num)).2]

/-- C54: with any number of blocks the output is never smaller than the length of the total momentum.
Missing: equality. -/
theorem C54_lower_bound_partial {run : List (List State)} (h : ∀ b ∈ run, b ≠ []) :
    ∃ r, globalLinearMomentum run = .ok r ∧ len (sumPoints momentum run) ≤ r := by
  rw [globalLinearMomentum, linear_eq, globalMomentum_eq momentum h]
  exact ⟨_, rfl, len_sum_le (sumBlock momentum) run⟩

example : ∃ r, globalLinearMomentum [[mover 1], [mover 2]] = .ok r ∧
    len (sumPoints momentum [[mover 1], [mover 2]]) ≤ r :=
  C54_lower_bound_partial (by simp)

/-- C54 is false for several blocks: two blocks moving in opposite directions have no total momentum and no
total moment of momentum, the outputs are 2. -/
theorem C54_blocks_wrong : ∃ run : List (List State), (∀ b ∈ run, b ≠ []) ∧
    sumPoints momentum run = 0 ∧ globalLinearMomentum run = .ok 2 ∧
    sumPoints moment run = 0 ∧ globalAngularMomentum run = .ok 2 := by
  have hne : ∀ b ∈ [[mover 1], [mover (-1)]], b ≠ [] := by simp
  refine ⟨[[mover 1], [mover (-1)]], hne, ?_, ?_, ?_, ?_⟩
  · rw [sumPoints, List.map_cons, List.map_cons, List.map_nil, mover_momentum, mover_momentum]
    funext c
    fin_cases c <;> simp
  · rw [globalLinearMomentum, linear_eq, globalMomentum_eq momentum hne]
    simp only [List.map_cons, List.map_nil, List.sum_cons, List.sum_nil, mover_momentum]
    rw [(len_axis 1 (by norm_num)).1, (len_axis_neg 1 (by norm_num)).1]
    norm_num
  · rw [sumPoints, List.map_cons, List.map_cons, List.map_nil, mover_moment, mover_moment]
    funext c
    fin_cases c <;> simp
  · have a1 : blockMomentum State.angular [mover 1] = .ok 1 := by
      have := C54_angular_partial (b := [mover 1]) (by simp)
      rw [globalAngularMomentum, globalMomentum_eq State.angular (by simp)] at this
      rw [blockMomentum_eq State.angular (by simp)]
      simp only [List.map_cons, List.map_nil, List.sum_cons, List.sum_nil, add_zero] at this
      rw [this, sumPoints]
      simp only [List.map_cons, List.map_nil, List.sum_cons, List.sum_nil, add_zero, mover_moment]
      rw [(len_axis 1 (by norm_num)).2]
    have a2 : blockMomentum State.angular [mover (-1)] = .ok 1 := by
      have := C54_angular_partial (b := [mover (-1)]) (by simp)
      rw [globalAngularMomentum, globalMomentum_eq State.angular (by simp)] at this
      rw [blockMomentum_eq State.angular (by simp)]
      simp only [List.map_cons, List.map_nil, List.sum_cons, List.sum_nil, add_zero] at this
      rw [this, sumPoints]
      simp only [List.map_cons, List.map_nil, List.sum_cons, List.sum_nil, add_zero, mover_moment]
      rw [(len_axis_neg 1 (by norm_num)).2]
    rw [globalAngularMomentum, globalMomentum, a1, Outcome.ok_bind, globalMomentum, a2]
    simp only [Outcome.ok_bind, globalMomentum]
    norm_num

/-- C93: the linear momentum reported for a point is its mass times its velocity. -/
theorem C93_linear (s : State) (i : Nat) : s.linear i = (s.density * s.vol i) • s.v i := by
  rw [linear_eq]
  rfl

example : (mover 3).linear 0 = ![3, 0, 0] := by
  rw [C93_linear]
  simp [mover]

/-- C93 is false for the angular momentum: what is reported for a point is the negative of its moment of
momentum about the origin, which is something else unless it vanishes. -/
theorem C93_angular_reversed (s : State) (i : Nat) :
    s.angular i = -((s.density * s.vol i) • crossProduct (s.y i) (s.v i)) ∧
      ((s.density * s.vol i) • crossProduct (s.y i) (s.v i) ≠ 0 →
        s.angular i ≠ (s.density * s.vol i) • crossProduct (s.y i) (s.v i)) := by
  have h := angular_eq s i
  rw [moment, State.mass] at h
  refine ⟨h, fun h0 e => h0 ?_⟩
  rw [h] at e
  exact self_eq_neg.mp e.symm

example : (mover 1).angular 0 = ![0, -1, 0] := by
  rw [(C93_angular_reversed (mover 1) 0).1, cross_apply]
  funext c
  fin_cases c <;> simp [mover]

end Verif.Outputs
