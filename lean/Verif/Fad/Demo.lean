import Verif.Fad.Spec
import Verif.Tangent.Demo

/-! A bar of two points for the examples. -/

noncomputable section

namespace Verif.Fad

open Verif Verif.Neigh Verif.Mech Verif.Tangent

/-- Two points at distance one. -/
def bar : Solid where
  K := 1
  mu := 1
  horizon := 2
  omega := fun _ _ => 1
  thermal := none
  x := fun i => ![i, 0, 0]
  v := fun _ => 1
  m := fun _ => 1
  damage := fun _ _ => 0

/-- The second point is moved to the position `s`. -/
def stretched (s : ℝ) : Fields := ⟨fun k => if k = 3 then s else 0, fun _ => 0, fun _ => 0, fun _ => 1⟩

theorem comp_zero (s : ℝ) : comp (stretched s).y 0 = ![0, 0, 0] := by
  funext c
  fin_cases c <;> simp [comp, stretched]

theorem comp_one (s : ℝ) : comp (stretched s).y 1 = ![s, 0, 0] := by
  funext c
  fin_cases c <;> simp [comp, stretched]

theorem bar_sound {s : ℝ} (hs : s ≠ 0) : ∀ h ∈ allHoods pair, bar.Sound (stretched s).y h := by
  rw [pair_hoods]
  have hne : comp (stretched s).y 1 ≠ comp (stretched s).y 0 := by
    rw [comp_zero, comp_one]
    intro e
    have := congrFun e 0
    simp at this
    exact hs this
  intro h hh j hj
  simp only [List.mem_cons, List.not_mem_nil, or_false] at hh
  rcases hh with rfl | rfl
  · simp at hj
    subst hj
    exact ⟨by norm_num [bar], hne⟩
  · simp at hj
    subst hj
    exact ⟨by norm_num [bar], hne.symm⟩

theorem bar_unsound : ¬ bar.Sound (stretched 0).y [0, 1] := by
  intro h
  have := (h 1 (by simp)).2
  apply this
  show comp (stretched 0).y 1 = comp (stretched 0).y 0
  rw [comp_zero, comp_one]

theorem bar_physical : bar.Physical where
  K := by norm_num [bar]
  mu := by norm_num [bar]
  v _ := by norm_num [bar]
  omega _ := by norm_num [bar]
  damage _ _ := by norm_num [bar]

theorem bar_weighed : bar.Weighed (allHoods pair) := by
  rw [pair_hoods]
  intro h hh
  simp only [List.mem_cons, List.not_mem_nil, or_false] at hh
  rcases hh with rfl | rfl <;> simp [weightedVolumeAt, bar, Solid.hood]

theorem pair_below : ∀ h ∈ allHoods pair, ∀ g ∈ h, g < 2 := by rw [pair_hoods]; decide

end Verif.Fad
