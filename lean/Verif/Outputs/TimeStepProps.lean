import Verif.Outputs.GlobalLemmas
import Verif.Outputs.MomentumProps

/-! C56: the critical time step. -/

noncomputable section

namespace Verif.Outputs

open Verif Verif.Neigh Verif.Mech Verif.Tangent
open scoped Classical

/-- C56: the critical time step is the least of `1.0e50` and the estimates for all points; in particular it is
positive and not larger than any of them. -/
theorem C56_critical_step {run : List MeshBlock} (h : ∀ B ∈ run, B.Regular) :
    ∃ t, stepOverBlocks (run.map MeshBlock.pieces) noLimit = .ok t ∧ 0 < t ∧
      (∀ B ∈ run, ∀ p ns, ns ≠ [] → p :: ns ∈ allHoods B.parts → t ≤ B.estimate p ns) ∧
      (t = 10 ^ 50 ∨ ∃ B ∈ run, ∃ p ns, ns ≠ [] ∧ p :: ns ∈ allHoods B.parts ∧ t = B.estimate p ns) := by
  obtain ⟨t, ht, hm, hl⟩ := stepOverBlocks_eq h le_rfl
  refine ⟨t, ht, ?_, ?_, ?_⟩
  · rcases hm with rfl | ⟨B, hB, hv⟩
    · unfold noLimit; positivity
    · exact estimate_pos (h B hB) (Set.mem_insert_of_mem _ hv)
  · intro B hB p ns hne hin
    exact hl (Set.mem_insert_of_mem _ ⟨B, hB, p, ns, hne, hin, rfl⟩)
  · rcases hm with rfl | ⟨B, hB, p, ns, hne, hin, e⟩
    · exact Or.inl rfl
    · exact Or.inr ⟨B, hB, p, ns, hne, hin, e⟩

/-- Two points one apart on two processors, each with a copy of the other. -/
def pairBlock : MeshBlock :=
  { density := 1, bulk := 1, horizon := fun _ => 1, vol := fun _ => 1, x := fun p => ![p, 0, 0],
    parts := [⟨[0, 1], [[1]]⟩, ⟨[1, 0], [[1]]⟩] }

theorem pairBlock_hoods : allHoods pairBlock.parts = [[0, 1], [1, 0]] := by
  simp [allHoods, pairBlock, Part.hoods, Part.hood]

theorem pairBlock_regular : pairBlock.Regular := by
  refine ⟨by simp [pairBlock], by simp [pairBlock], by simp [pairBlock], by simp [pairBlock], by simp [pairBlock],
    ?_, ?_⟩
  · intro P hP
    simp only [pairBlock, List.mem_cons, List.not_mem_nil, or_false] at hP
    rcases hP with rfl | rfl <;> simp [Part.Valid, Within]
  · rw [pairBlock_hoods]
    intro h hh p ns e j hj
    simp only [List.mem_cons, List.not_mem_nil, or_false] at hh
    rcases hh with rfl | rfl
    · cases e
      have : j = 1 := by simpa using hj
      subst this
      intro e
      have := congrFun e 0
      simp [pairBlock] at this
    · cases e
      have : j = 0 := by simpa using hj
      subst this
      intro e
      have := congrFun e 0
      simp [pairBlock] at this

example : ∃ t, stepOverBlocks ([pairBlock].map MeshBlock.pieces) noLimit = .ok t ∧ 0 < t ∧
    t ≤ pairBlock.estimate 0 [1] := by
  obtain ⟨t, ht, hp, hl, _⟩ := C56_critical_step (run := [pairBlock]) (by simpa using pairBlock_regular)
  exact ⟨t, ht, hp, hl pairBlock (by simp) 0 [1] (by simp) (by rw [pairBlock_hoods]; simp)⟩

/-- C56: the critical time step does not depend on the distribution of the points over processors. -/
theorem C56_distribution {run : List MeshBlock} {parts : MeshBlock → List Part} (h : ∀ B ∈ run, B.Regular)
    (h' : ∀ B ∈ run, ({ B with parts := parts B } : MeshBlock).Regular)
    (same : ∀ B ∈ run, ∀ hood, hood ∈ allHoods B.parts ↔ hood ∈ allHoods (parts B)) :
    stepOverBlocks (run.map MeshBlock.pieces) noLimit =
      stepOverBlocks ((run.map fun B => ({ B with parts := parts B } : MeshBlock)).map MeshBlock.pieces) noLimit := by
  obtain ⟨t, ht, hl⟩ := stepOverBlocks_eq h le_rfl
  obtain ⟨t', ht', hl'⟩ := stepOverBlocks_eq (run := run.map fun B => ({ B with parts := parts B } : MeshBlock))
    (by
      intro B hB
      obtain ⟨B0, hB0, rfl⟩ := List.mem_map.mp hB
      exact h' B0 hB0) le_rfl
  rw [ht, ht']
  congr 1
  refine hl.unique ?_
  have : {v | ∃ B ∈ run, v ∈ B.Estimates} =
      {v | ∃ B ∈ run.map fun B => ({ B with parts := parts B } : MeshBlock), v ∈ B.Estimates} := by
    ext v
    constructor
    · rintro ⟨B, hB, p, ns, hne, hm, e⟩
      exact ⟨_, List.mem_map_of_mem hB, p, ns, hne, (same B hB _).mp hm, e⟩
    · rintro ⟨B, hB, p, ns, hne, hm, e⟩
      obtain ⟨B0, hB0, rfl⟩ := List.mem_map.mp hB
      exact ⟨B0, hB0, p, ns, hne, (same B0 hB0 _).mpr hm, e⟩
  rw [this]
  exact hl'

/-- Both points on one processor. -/
example : stepOverBlocks ([pairBlock].map MeshBlock.pieces) noLimit =
    stepOverBlocks [({ pairBlock with parts := [⟨[0, 1], [[1], [0]]⟩] } : MeshBlock).pieces] noLimit := by
  have e : allHoods [⟨[0, 1], [[1], [0]]⟩] = [[0, 1], [1, 0]] := by simp [allHoods, Part.hoods, Part.hood]
  refine C56_distribution (run := [pairBlock]) (parts := fun _ => [⟨[0, 1], [[1], [0]]⟩])
    (by simpa using pairBlock_regular) ?_ ?_
  · intro B hB
    have : B = pairBlock := by simpa using hB
    subst this
    obtain ⟨h1, h2, h3, h4, _, _, h7⟩ := pairBlock_regular
    refine ⟨h1, h2, h3, h4, by simp, by simp [Part.Valid, Within], ?_⟩
    intro hood hh
    refine h7 hood ?_
    have hh' : hood ∈ allHoods [⟨[0, 1], [[1], [0]]⟩] := hh
    rw [pairBlock_hoods, ← e]
    exact hh'
  · intro B hB hood
    have : B = pairBlock := by simpa using hB
    subst this
    rw [pairBlock_hoods, e]

/-- C56: the time step of the explicit integrator without "Fixed dt": the critical time step reduced by the
safety factor, hence positive and not larger than any point's estimate. -/
theorem C56_explicit_step {run : List MeshBlock} (h : ∀ B ∈ run, B.Regular) {s : ℝ} (h0 : 0 < s) (h1 : s ≤ 1) :
    ∃ t, stepOverBlocks (run.map MeshBlock.pieces) noLimit = .ok t ∧
      explicitStep none (some s) (run.map MeshBlock.pieces) = .ok (s * t) ∧ 0 < s * t ∧
      ∀ B ∈ run, ∀ p ns, ns ≠ [] → p :: ns ∈ allHoods B.parts → s * t ≤ B.estimate p ns := by
  obtain ⟨t, ht, hp, hl, _⟩ := C56_critical_step h
  refine ⟨t, ht, ?_, by positivity, fun B hB p ns hne hm => ?_⟩
  · rw [explicitStep, ht, Outcome.ok_bind]
    simp only
    rw [mul_comm]
  · exact (mul_le_of_le_one_left hp.le h1).trans (hl B hB p ns hne hm)

example : ∃ dt, explicitStep none (some (7 / 10)) ([pairBlock].map MeshBlock.pieces) = .ok dt ∧ 0 < dt ∧
    dt ≤ pairBlock.estimate 0 [1] := by
  obtain ⟨t, _, h, hp, hl⟩ := C56_explicit_step (run := [pairBlock]) (by simpa using pairBlock_regular)
    (s := 7 / 10) (by norm_num) (by norm_num)
  exact ⟨_, h, hp, hl pairBlock (by simp) 0 [1] (by simp) (by rw [pairBlock_hoods]; simp)⟩

/-- C56: a "Fixed dt" replaces the critical time step; the safety factor applies to it too. -/
theorem C56_fixed_step {run : List MeshBlock} (h : ∀ B ∈ run, B.Regular) (f s : ℝ) :
    explicitStep (some f) (some s) (run.map MeshBlock.pieces) = .ok (f * s) ∧
      explicitStep (some f) none (run.map MeshBlock.pieces) = .ok f := by
  obtain ⟨t, ht, _⟩ := C56_critical_step h
  rw [explicitStep, explicitStep, ht]
  exact ⟨rfl, rfl⟩

example : explicitStep (some 3) none ([pairBlock].map MeshBlock.pieces) = .ok 3 :=
  (C56_fixed_step (by simpa using pairBlock_regular) 3 1).2

end Verif.Outputs
