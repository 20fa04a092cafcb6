import Verif.Tangent.FdProps

/-! A simple material for the examples: the force density between neighbors is their distance times the volume
of the other point. -/

noncomputable section

namespace Verif.Tangent

open Verif Verif.Neigh Verif.Mech
open scoped Classical

/-- The volume of the point in place `i` of a neighborhood. -/
def volAt (vol : Nat → ℝ) (g : List Nat) (i : Nat) : ℝ := (g[i]?).elim 0 vol

/-- Springs between the first point of the neighborhood and the others. -/
def spring (vol : Nat → ℝ) : Kernel := fun g y _ => .ok fun k =>
  if k / 3 = 0 then ∑ i ∈ Finset.range g.length, (y (3 * i + k % 3) - y (k % 3)) * volAt vol g i
  else (y (k % 3) - y k) * volAt vol g 0

theorem spring_evaluable (vol : Nat → ℝ) (Y V : Nat → ℝ) (eps dt : ℝ) (hs : List (List Nat)) :
    Evaluable (spring vol) Y V eps dt hs := fun _ _ _ _ _ _ => ⟨_, rfl⟩

theorem spring_force (vol Y V : Nat → ℝ) : ∀ hs, ∃ f, internalForce (spring vol) Y V hs = .ok f
  | [] => ⟨_, rfl⟩
  | h :: hs => by
    obtain ⟨f, hf⟩ := spring_force vol Y V hs
    unfold internalForce
    rw [hf]
    exact ⟨_, rfl⟩

/-- Two points that see each other. -/
def pair : List Part := [⟨[0, 1], [[1], [0]]⟩]

theorem pair_valid : ∀ P ∈ pair, P.Valid := by
  unfold Part.Valid Within pair
  decide

theorem pair_hoods : allHoods pair = [[0, 1], [1, 0]] := by decide

theorem pair_nodup : ∀ h ∈ allHoods pair, h.Nodup := by rw [pair_hoods]; decide

theorem pair_joined : Joined pair := by
  unfold Joined pair
  decide

/-- The force on the first point, in direction 1. -/
theorem pair_force (vol Y V f : Nat → ℝ) (h : internalForce (spring vol) Y V (allHoods pair) = .ok f) :
    f 0 = 2 * vol 1 * (Y 3 - Y 0) := by
  rw [internalForce_val h, pair_hoods]
  simp only [List.map_cons, List.map_nil, List.sum_cons, List.sum_nil]
  unfold hoodForce spread spring out volAt gather
  simp [Finset.sum_range_succ]
  ring

def settings (eps dt : ℝ) : Settings := { epsilon := eps, dt := dt }

theorem settings_mech (eps dt : ℝ) : Mechanical (settings eps dt) := ⟨rfl, rfl, rfl, rfl⟩

def fresh : Scratch := ⟨0, fun _ _ => none⟩

/-- The tangent of the two points exists and couples them with four times the product of the volumes. -/
theorem pair_tangent (F : Fields) (eps dt : ℝ) (he : eps ≠ 0) (ht : dt ≠ 0) :
    ∃ R A, allocate 3 (pair.map Part.proc) = .ok R ∧
      assemble (settings eps dt) .full (spring F.vol) (fun _ _ => .ub) F fresh (pair.map Part.proc) (Sparse.zero R) =
        .ok A ∧ A.val 0 3 = 2 * F.vol 0 * F.vol 1 := by
  obtain ⟨R, A, hR, hA⟩ := C87_assembly_defined_partial (settings eps dt) (settings_mech _ _) he ht (spring F.vol)
    (fun _ _ => .ub) F fresh pair pair_valid pair_nodup (spring_evaluable _ _ _ _ _ _) pair_joined
  refine ⟨R, A, hR, hA, ?_⟩
  obtain ⟨f1, h1⟩ := spring_force F.vol (bump F.y 3 eps) (bump F.v 3 (eps / dt)) (allHoods pair)
  obtain ⟨f0, h0⟩ := spring_force F.vol (bump F.y 3 (-eps)) (bump F.v 3 (-(eps / dt))) (allHoods pair)
  have := C88_central_difference (settings eps dt) (settings_mech _ _) (spring F.vol) (fun _ _ => .ub) F fresh
    pair pair_valid pair_nodup R A hA 0 1 0 0 (by omega) (by omega) f1 f0 h1 h0
  rw [show 3 * 0 + 0 = 0 from rfl, show 3 * 1 + 0 = 3 from rfl] at this
  rw [this, pair_force _ _ _ _ h1, pair_force _ _ _ _ h0]
  unfold bump settings
  simp only [Function.update_self, Function.update_of_ne (show (0 : Nat) ≠ 3 by omega)]
  field_simp
  ring

/-! The hypotheses of C87 and C88 are met. -/

example : Mechanical (settings (1 / 1000) (1 / 10)) ∧ (∀ P ∈ pair, P.Valid) ∧ (∀ h ∈ allHoods pair, h.Nodup) ∧
    Evaluable (spring fun _ => 1) (fun _ => 0) (fun _ => 0) (1 / 1000) (1 / 10) (allHoods pair) ∧ Joined pair :=
  ⟨settings_mech _ _, pair_valid, pair_nodup, spring_evaluable _ _ _ _ _ _, pair_joined⟩

example : ∃ R A, allocate 3 (pair.map Part.proc) = .ok R ∧
      assemble (settings (1 / 1000) (1 / 10)) .full (spring fun _ => 3) (fun _ _ => .ub)
        ⟨fun _ => 0, fun _ => 0, fun _ => 0, fun _ => 3⟩ fresh (pair.map Part.proc) (Sparse.zero R) = .ok A ∧
      A.val 0 3 = 18 := by
  obtain ⟨R, A, hR, hA, e⟩ := pair_tangent ⟨fun _ => 0, fun _ => 0, fun _ => 0, fun _ => 3⟩ (1 / 1000) (1 / 10)
    (by norm_num) (by norm_num)
  exact ⟨R, A, hR, hA, by rw [e]; norm_num⟩

example : Thermal ⟨1, 0, 0, true, 0, 1 / 1000, 1⟩ ∧
    FluxEvaluable (fun g T => .ok fun k => T 0 * g.length - T k) (fun _ => 0) (1 / 1000) (allHoods pair) :=
  ⟨⟨rfl, rfl, rfl, rfl⟩, fun _ _ _ _ _ _ => ⟨_, rfl⟩⟩

end Verif.Tangent
