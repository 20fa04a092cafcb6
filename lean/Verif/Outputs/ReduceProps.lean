import Verif.Outputs.Lemmas

/-! C52: reductions over blocks and node sets. -/

noncomputable section

namespace Verif.Outputs

open Verif Verif.Mech
open scoped Classical

/-- Two processors and one block; the values of the variable are 1, 2 on the first, 3 on the second. -/
def demoProcs : List (List Piece) :=
  [[⟨1, "block_1", [0, 1], fun i => ![i, 0, 0], fun i => (i : ℝ) + 1⟩],
   [⟨1, "block_1", [2], fun _ => ![2, 0, 0], fun _ => 3⟩]]

theorem demo_identified : ∀ blocks ∈ demoProcs, Identified "block_1" blocks := by
  intro blocks h
  have : blocks.length = 1 ∧ ∀ b ∈ blocks, b.id = 1 ∧ b.name = "block_1" := by
    rcases List.mem_cons.mp h with rfl | h
    · exact ⟨rfl, by simp⟩
    · rw [List.mem_singleton] at h
      subst h
      exact ⟨rfl, by simp⟩
  obtain ⟨hl, hb⟩ := this
  obtain ⟨b0, rfl⟩ := List.length_eq_one_iff.mp hl
  refine ⟨fun b h => by rw [(hb b h).1]; decide, fun b h b' h' => ?_, b0, by simp, (hb b0 (by simp)).2⟩
  rw [(hb b h).1, (hb b' h').1, (hb b h).2, (hb b' h').2]
  simp

theorem demo_values : valuesOfBlock "block_1" 1 0 demoProcs = [1, 2, 3] := by
  simp [valuesOfBlock, demoProcs, List.range_succ]
  norm_num

theorem dblMin_le_one : dblMin ≤ 1 := pow_le_one₀ (by norm_num) (by norm_num)

theorem dblMin_pos : 0 < dblMin := pow_pos (by norm_num) _

theorem le_dblMax : (1024 : ℝ) ≤ dblMax := by
  have h1 : (1 : ℝ) ≤ 2 - (1 / 2) ^ 52 := by
    have : ((1 : ℝ) / 2) ^ 52 ≤ 1 := pow_le_one₀ (by norm_num) (by norm_num)
    linarith
  have h2 : (2 : ℝ) ^ 10 ≤ 2 ^ 1023 := pow_le_pow_right₀ (by norm_num) (by norm_num)
  have h3 : (1024 : ℝ) = 2 ^ 10 := by norm_num
  rw [dblMax, h3]
  exact h2.trans (le_mul_of_one_le_left (pow_nonneg (by norm_num) _) h1)

/-- C52: the minimum reported for a block is the least value of the variable in the block. -/
theorem C52_block_minimum (n c : Nat) {name : String} {procs : List (List Piece)} (hp : procs ≠ [])
    (hb : ∀ blocks ∈ procs, Identified name blocks) (hne : valuesOfBlock name n c procs ≠ [])
    (hv : ∀ v ∈ valuesOfBlock name n c procs, v ≤ dblMax) :
    ∃ r, blockData .minimum n c name procs = .ok r ∧ IsLeast {v | v ∈ valuesOfBlock name n c procs} r :=
  ⟨_, blockData_eq .minimum n c hp hb, fold_minimum hne hv⟩

example : ∃ r, blockData .minimum 1 0 "block_1" demoProcs = .ok r ∧
    IsLeast {v | v ∈ valuesOfBlock "block_1" 1 0 demoProcs} r := by
  refine C52_block_minimum 1 0 (by simp [demoProcs]) demo_identified (by simp [demo_values]) ?_
  rw [demo_values]
  intro v hv
  have h := le_dblMax
  simp only [List.mem_cons, List.not_mem_nil, or_false] at hv
  rcases hv with rfl | rfl | rfl <;> linarith

/-- C52: the sum reported for a block is the sum of the variable over the points of the block. -/
theorem C52_block_sum (n c : Nat) {name : String} {procs : List (List Piece)} (hp : procs ≠ [])
    (hb : ∀ blocks ∈ procs, Identified name blocks) :
    blockData .sum n c name procs = .ok (valuesOfBlock name n c procs).sum := by
  rw [blockData_eq .sum n c hp hb, fold_sum]

example : blockData .sum 1 0 "block_1" demoProcs = .ok 6 := by
  rw [C52_block_sum 1 0 (by simp [demoProcs]) demo_identified, demo_values]
  norm_num

/-- C52: the maximum reported for a block is the greatest value of the variable in the block, provided some
value is at least `DBL_MIN`.  Missing: data without such a value, see `C52_block_maximum_wrong`. -/
theorem C52_block_maximum_partial (n c : Nat) {name : String} {procs : List (List Piece)} (hp : procs ≠ [])
    (hb : ∀ blocks ∈ procs, Identified name blocks) (hv : ∃ v ∈ valuesOfBlock name n c procs, dblMin ≤ v) :
    ∃ r, blockData .maximum n c name procs = .ok r ∧ IsGreatest {v | v ∈ valuesOfBlock name n c procs} r :=
  ⟨_, blockData_eq .maximum n c hp hb, fold_maximum hv⟩

example : ∃ r, blockData .maximum 1 0 "block_1" demoProcs = .ok r ∧
    IsGreatest {v | v ∈ valuesOfBlock "block_1" 1 0 demoProcs} r :=
  C52_block_maximum_partial 1 0 (by simp [demoProcs]) demo_identified
    ⟨1, by simp [demo_values], dblMin_le_one⟩

/-- C52 is false for the maximum: if all values are below `DBL_MIN`, for instance negative or zero, the
maximum reported is `DBL_MIN`, which is none of the values. -/
theorem C52_block_maximum_wrong (n c : Nat) {name : String} {procs : List (List Piece)} (hp : procs ≠ [])
    (hb : ∀ blocks ∈ procs, Identified name blocks) (hv : ∀ v ∈ valuesOfBlock name n c procs, v < dblMin) :
    blockData .maximum n c name procs = .ok dblMin ∧ dblMin ∉ valuesOfBlock name n c procs := by
  rw [blockData_eq .maximum n c hp hb, fold_maximum_low fun v h => (hv v h).le]
  exact ⟨rfl, fun h => lt_irrefl _ (hv _ h)⟩

/-- A single point with value -5: the reported maximum is positive. -/
example : blockData .maximum 1 0 "b" [[⟨1, "b", [0], fun _ => 0, fun _ => -5⟩]] = .ok dblMin ∧
    dblMin ∉ valuesOfBlock "b" 1 0 [[⟨1, "b", [0], fun _ => 0, fun _ => -5⟩]] := by
  refine C52_block_maximum_wrong 1 0 (by simp) ?_ ?_
  · intro blocks h
    rw [List.mem_singleton] at h
    subst h
    exact ⟨by simp, by simp, by simp⟩
  · simp only [valuesOfBlock, List.flatMap_cons, List.flatMap_nil, List.append_nil]
    intro v hv
    have : v = -5 := by simpa using hv
    have := dblMin_pos
    linarith

/-- C52: the result does not depend on the distribution of the points over processors. -/
theorem C52_block_distribution (k : Calc) (n c : Nat) {name : String} {procs procs' : List (List Piece)}
    (hp : procs ≠ []) (hb : ∀ blocks ∈ procs, Identified name blocks) (hp' : procs' ≠ [])
    (hb' : ∀ blocks ∈ procs', Identified name blocks)
    (h : (valuesOfBlock name n c procs).Perm (valuesOfBlock name n c procs')) :
    blockData k n c name procs = blockData k n c name procs' := by
  rw [blockData_eq k n c hp hb, blockData_eq k n c hp' hb', fold_perm k h]

/-- The same processors in another order. -/
example : blockData .maximum 1 0 "block_1" demoProcs = blockData .maximum 1 0 "block_1" demoProcs.reverse := by
  refine C52_block_distribution _ 1 0 (by simp [demoProcs]) demo_identified (by simp [demoProcs])
    (fun b hb => demo_identified b (by simpa using hb)) ?_
  have : valuesOfBlock "block_1" 1 0 demoProcs.reverse = [3, 1, 2] := by
    simp [valuesOfBlock, demoProcs, List.range_succ]
    norm_num
  rw [demo_values, this]
  exact (List.perm_append_comm (l₁ := [1, 2]) (l₂ := [3]))

/-- C52: asking for a block that does not exist is an error. -/
theorem C52_unknown_block (k : Calc) (n c : Nat) {name : String} {blocks : List Piece}
    {procs : List (List Piece)} (h : ∀ b ∈ blocks, b.name ≠ name) :
    blockData k n c name (blocks :: procs) = .fail .runtimeError := by
  have h1 : findBlock name blocks = .fail .runtimeError := by
    have : ∀ (l : List Piece) (x : Int), (∀ b' ∈ l, b'.name ≠ name) →
        l.foldl (fun id b => if b.name = name then b.id else id) x = x := by
      intro l
      induction l with
      | nil => intro x _; rfl
      | cons c l ih =>
        intro x hl
        rw [List.foldl_cons, if_neg (hl c (by simp))]
        exact ih x fun b' hb' => hl b' (List.mem_cons_of_mem _ hb')
    rw [findBlock, this blocks (-1) h, if_pos rfl]
  rw [blockData, collect, h1]
  rfl

example : blockData .sum 1 0 "block_2" demoProcs = .fail .runtimeError :=
  C52_unknown_block _ 1 0 (by simp)

/-! ### Node sets -/

/-- The node set contains points 1 and 2. -/
def demoSets : List (List Nat × List Piece) :=
  [([1], [⟨1, "block_1", [0, 1], fun i => ![i, 0, 0], fun i => (i : ℝ) + 1⟩]),
   ([2], [⟨1, "block_1", [2], fun _ => ![2, 0, 0], fun _ => 3⟩])]

theorem demoSets_distinct : ∀ p ∈ demoSets, DistinctNames p.2 := by
  intro p hp
  simp only [demoSets, List.mem_cons, List.not_mem_nil, or_false] at hp
  rcases hp with rfl | rfl <;> simp [DistinctNames]

theorem demoSets_values : valuesOfNodeSet 1 0 demoSets = [2, 3] := by
  simp [valuesOfNodeSet, demoSets, List.range_succ]
  norm_num

/-- C52: the minimum over a node set. -/
theorem C52_set_minimum (n c : Nat) {procs : List (List Nat × List Piece)} (hp : procs ≠ [])
    (hb : ∀ p ∈ procs, DistinctNames p.2) (hne : valuesOfNodeSet n c procs ≠ [])
    (hv : ∀ v ∈ valuesOfNodeSet n c procs, v ≤ dblMax) :
    ∃ r, nodeSetData .minimum n c procs = .ok r ∧ IsLeast {v | v ∈ valuesOfNodeSet n c procs} r :=
  ⟨_, nodeSetData_eq .minimum n c hp hb, fold_minimum hne hv⟩

example : ∃ r, nodeSetData .minimum 1 0 demoSets = .ok r ∧
    IsLeast {v | v ∈ valuesOfNodeSet 1 0 demoSets} r := by
  refine C52_set_minimum 1 0 (by simp [demoSets]) demoSets_distinct (by simp [demoSets_values]) ?_
  rw [demoSets_values]
  intro v hv
  have h := le_dblMax
  simp only [List.mem_cons, List.not_mem_nil, or_false] at hv
  rcases hv with rfl | rfl <;> linarith

/-- C52: the sum over a node set. -/
theorem C52_set_sum (n c : Nat) {procs : List (List Nat × List Piece)} (hp : procs ≠ [])
    (hb : ∀ p ∈ procs, DistinctNames p.2) :
    nodeSetData .sum n c procs = .ok (valuesOfNodeSet n c procs).sum := by
  rw [nodeSetData_eq .sum n c hp hb, fold_sum]

example : nodeSetData .sum 1 0 demoSets = .ok 5 := by
  rw [C52_set_sum 1 0 (by simp [demoSets]) demoSets_distinct, demoSets_values]
  norm_num

/-- C52: the maximum over a node set, provided some value is at least `DBL_MIN`.  Missing: data without
such a value, see `C52_set_maximum_wrong`. -/
theorem C52_set_maximum_partial (n c : Nat) {procs : List (List Nat × List Piece)} (hp : procs ≠ [])
    (hb : ∀ p ∈ procs, DistinctNames p.2) (hv : ∃ v ∈ valuesOfNodeSet n c procs, dblMin ≤ v) :
    ∃ r, nodeSetData .maximum n c procs = .ok r ∧ IsGreatest {v | v ∈ valuesOfNodeSet n c procs} r :=
  ⟨_, nodeSetData_eq .maximum n c hp hb, fold_maximum hv⟩

example : ∃ r, nodeSetData .maximum 1 0 demoSets = .ok r ∧
    IsGreatest {v | v ∈ valuesOfNodeSet 1 0 demoSets} r :=
  C52_set_maximum_partial 1 0 (by simp [demoSets]) demoSets_distinct
    ⟨2, by simp [demoSets_values], dblMin_le_one.trans (by norm_num)⟩

/-- C52 is false for the maximum over a node set, in the same way as for blocks. -/
theorem C52_set_maximum_wrong (n c : Nat) {procs : List (List Nat × List Piece)} (hp : procs ≠ [])
    (hb : ∀ p ∈ procs, DistinctNames p.2) (hv : ∀ v ∈ valuesOfNodeSet n c procs, v < dblMin) :
    nodeSetData .maximum n c procs = .ok dblMin ∧ dblMin ∉ valuesOfNodeSet n c procs := by
  rw [nodeSetData_eq .maximum n c hp hb, fold_maximum_low fun v h => (hv v h).le]
  exact ⟨rfl, fun h => lt_irrefl _ (hv _ h)⟩

example : nodeSetData .maximum 1 0 [([0], [⟨1, "b", [0], fun _ => 0, fun _ => -5⟩])] = .ok dblMin ∧
    dblMin ∉ valuesOfNodeSet 1 0 [([0], [⟨1, "b", [0], fun _ => 0, fun _ => -5⟩])] := by
  refine C52_set_maximum_wrong 1 0 (by simp) ?_ ?_
  · intro p h
    rw [List.mem_singleton] at h
    subst h
    simp [DistinctNames]
  · intro v hv
    have : v = -5 := by simpa [valuesOfNodeSet, List.filter_cons] using hv
    have := dblMin_pos
    linarith

/-- C52: independence of the distribution, for node sets. -/
theorem C52_set_distribution (k : Calc) (n c : Nat) {procs procs' : List (List Nat × List Piece)}
    (hp : procs ≠ []) (hb : ∀ p ∈ procs, DistinctNames p.2) (hp' : procs' ≠ [])
    (hb' : ∀ p ∈ procs', DistinctNames p.2)
    (h : (valuesOfNodeSet n c procs).Perm (valuesOfNodeSet n c procs')) :
    nodeSetData k n c procs = nodeSetData k n c procs' := by
  rw [nodeSetData_eq k n c hp hb, nodeSetData_eq k n c hp' hb', fold_perm k h]

example : nodeSetData .minimum 1 0 demoSets = nodeSetData .minimum 1 0 demoSets.reverse := by
  refine C52_set_distribution _ 1 0 (by simp [demoSets]) demoSets_distinct (by simp [demoSets])
    (fun b hb => demoSets_distinct b (by simpa using hb)) ?_
  have : valuesOfNodeSet 1 0 demoSets.reverse = [3, 2] := by
    simp [valuesOfNodeSet, demoSets, List.range_succ]
    norm_num
  rw [demoSets_values, this]
  exact List.Perm.swap _ _ _

end Verif.Outputs
