import Verif.Exodus.DefinedLemmas

/-! # A small analysis, for the examples -/

namespace Verif.Exodus

open Verif Verif.Field Verif.Mech

namespace Demo

/-- Three points on one processor, one node set. -/
noncomputable def site : Site :=
  ⟨[7, 3, 5], fun k => k, [("left", [5, 7]), ("right", [3])], 10, 11, 1, 0⟩

def displacement : Var := ⟨"Displacement", ⟨.node, .vector, .twoStep, "Displacement", 2⟩⟩
def elementId : Var := ⟨"Element_Id", ⟨.element, .scalar, .constant, "Element_Id", 10⟩⟩
def stress : Var := ⟨"Stress", ⟨.element, .fullTensor, .twoStep, "Stress", 4⟩⟩
def energy : Var := ⟨"Energy", ⟨.global, .scalar, .constant, "Energy", 5⟩⟩
def damage : Var := ⟨"Damage", ⟨.element, .scalar, .twoStep, "Damage", 6⟩⟩

def vars : List Var := [displacement, elementId, energy, stress, damage]

/-- The first block holds the point 3, has no stress. -/
noncomputable def first (t : ℝ) : Blk :=
  ⟨1, "block_1", [3], fun f s =>
    if f = 2 ∧ s = .np1 then some fun k => t + k
    else if f = 5 ∧ s = .none then some fun _ => 7 * t
    else if f = 6 ∧ s = .np1 then some fun _ => t / 2
    else none⟩

/-- The second block holds the points 5 and 7. -/
noncomputable def second (t : ℝ) : Blk :=
  ⟨4, "block_4", [5, 7], fun f s =>
    if f = 2 ∧ s = .np1 then some fun k => 10 * t + k
    else if f = 4 ∧ s = .np1 then some fun k => 100 * t + k
    else if f = 6 ∧ s = .np1 then some fun k => t / 4 + k
    else none⟩

noncomputable def blocks (t : ℝ) : List Blk := [first t, second t]

noncomputable def steps : List (ℝ × List Blk) := [(0, blocks 0), (2, blocks 2)]

theorem nodeNames : kindNames .node vars = ["DisplacementX", "DisplacementY", "DisplacementZ"] := by
  decide

theorem elemNames : kindNames .element vars = ["Element_Id", "StressXX", "StressXY", "StressXZ",
    "StressYX", "StressYY", "StressYZ", "StressZX", "StressZY", "StressZZ", "Damage"] := by
  decide

theorem globalNames : kindNames .global vars = ["Energy"] := by decide

theorem goodRequest : GoodRequest site vars := by
  refine ⟨?_, ?_, ?_⟩
  · intro v hv h
    simp [vars] at hv
    rcases hv with rfl | rfl | rfl | rfl | rfl <;> simp [site, displacement, stress, elementId, energy, damage] at h ⊢
  · intro v hv
    simp [vars] at hv
    rcases hv with rfl | rfl | rfl | rfl | rfl <;> simp [Allowed, displacement, stress, elementId, energy, damage]
  · intro r
    cases r
    all_goals decide

theorem good : ∃ h r, session site vars steps = .ok (some (h, r)) := by
  refine session_defined (t0 := 0) (b0 := blocks 0) rfl goodRequest ?_ (Or.inr ⟨rfl, ?_, ?_⟩)
  · intro p hp
    simp [steps] at hp
    rcases hp with rfl | rfl
    all_goals
      refine ⟨?_, ?_⟩
      · intro v hv hr b hb
        simp [vars] at hv
        simp [blocks] at hb
        rcases hv with rfl | rfl | rfl | rfl | rfl <;>
          simp [displacement, stress, elementId, energy, damage] at hr ⊢
        rcases hb with rfl | rfl <;> simp [first, second, stepOf]
      · intro v hv hr
        refine ⟨_, rfl, ?_⟩
        simp [vars] at hv
        rcases hv with rfl | rfl | rfl | rfl | rfl <;>
          simp [displacement, stress, elementId, energy, damage] at hr ⊢
        simp [first, stepOf]
  · refine ⟨by simp [blocks], by simp [site], ?_, ?_, ?_, ?_⟩
    · constructor
      · simp [blocks, first, second]
      · simp [blocks, first, second, allIds]
    · simp [blocks, first, second, allIds, site]
    · simp [site]
      decide
    · simp [blocks, first, second]
      decide
  · intro p hp
    simp [steps] at hp
    rcases hp with rfl | rfl <;> rfl

end Demo

end Verif.Exodus
