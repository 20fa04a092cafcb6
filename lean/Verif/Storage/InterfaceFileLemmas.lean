import Verif.Storage.InterfaceFileSpec
import Mathlib.Data.List.Flatten

/-!
# The file of the interfaces (lemmas)
-/

noncomputable section

namespace Verif.Storage

open Verif Verif.Mech
open scoped Classical

theorem count_both (is : List Interface) :
    ((is.map (·.count)).filter fun s => s = 4).length + ((is.map (·.count)).filter fun s => s = 3).length = is.length ↔
      ∀ i ∈ is, i.count = 4 ∨ i.count = 3 := by
  induction is with
  | nil => simp
  | cons i is ih =>
      have h1 := List.length_filter_le (fun s : Nat => decide (s = 4)) (is.map (·.count))
      have hle : ∀ l : List Nat, (l.filter fun s => s = 4).length + (l.filter fun s => s = 3).length ≤ l.length := by
        intro l
        induction l with
        | nil => simp
        | cons a l ih =>
            by_cases h4 : a = 4
            · subst h4; simp; omega
            · by_cases h3 : a = 3
              · subst h3; simp; omega
              · simp [h4, h3]; omega
      have hl := hle (is.map (·.count))
      rw [List.length_map] at hl
      by_cases h4 : i.count = 4
      · simp only [List.map_cons, List.filter_cons, h4, List.length_cons, List.mem_cons, forall_eq_or_imp]
        simp only [decide_true, if_true, List.length_cons, true_or, true_and]
        rw [← ih]
        have : decide ((4 : Nat) = 3) = false := by decide
        simp only [this]
        simp
        omega
      · by_cases h3 : i.count = 3
        · simp only [List.map_cons, List.filter_cons, h3, List.length_cons, List.mem_cons, forall_eq_or_imp]
          have : decide ((3 : Nat) = 4) = false := by decide
          simp only [this, decide_true, if_true, List.length_cons, or_true, true_and]
          rw [← ih]
          simp
          omega
        · simp only [List.map_cons, List.filter_cons, h4, h3, List.length_cons, List.mem_cons, forall_eq_or_imp]
          simp
          omega

/-- The entries of the interface after those of `pre`. -/
theorem entries_at (pre : List Interface) (i : Interface) (post : List Interface)
    (h : ∀ j ∈ pre ++ i :: post, j.count ≤ j.nodes.length) :
    ((((pre ++ i :: post).flatMap fun j => j.nodes.take j.count).drop
      (((pre ++ i :: post).map (·.count)).take pre.length).sum).take i.count) = i.nodes.take i.count := by
  have hs : (((pre ++ i :: post).map (·.count)).take pre.length).sum =
      (pre.flatMap fun j => j.nodes.take j.count).length := by
    rw [List.map_append, List.take_append]
    simp only [List.length_map, Nat.sub_self, List.take_zero, List.append_nil]
    rw [List.take_of_length_le (by simp), List.length_flatMap]
    congr 1
    refine List.map_congr_left fun j hj => ?_
    have := h j (by simp [hj])
    simp [this]
  rw [hs, List.flatMap_append, List.drop_left, List.flatMap_cons]
  have hi : (i.nodes.take i.count).length = i.count := by
    have := h i (by simp)
    simp [this]
  exact List.take_left' hi

theorem blockConnect_eq {m : MeshNodes} (n : Nat) (pre is : List Interface)
    (h : ∀ j ∈ pre ++ is, j.count ≤ j.nodes.length) :
    blockConnect ⟨(pre ++ is).map (·.count), (pre ++ is).flatMap fun j => j.nodes.take j.count⟩ m n pre.length
      (is.map (·.count)) =
      (is.filter fun i => i.count = n).map fun i => (i.nodes.take i.count).map m.number := by
  induction is generalizing pre with
  | nil => simp [blockConnect]
  | cons i is ih =>
      have hi := ih (pre ++ [i]) (by simpa using h)
      simp only [List.append_assoc, List.singleton_append, List.length_append, List.length_singleton] at hi
      rw [List.map_cons, blockConnect]
      by_cases hc : i.count = n
      · rw [if_neg (by simpa using hc), hi, List.filter_cons_of_pos (by simpa using hc), List.map_cons]
        congr 1
        have := entries_at pre i is h
        simp only [NodeTable.first]
        rw [← hc, this]
      · rw [if_pos hc, hi, List.filter_cons_of_neg (by simpa using hc)]

theorem shellFile_eq (start : Nat) (is : List Interface) (m : MeshNodes) (hn : ∀ i ∈ is, i.count ≤ i.nodes.length)
    (hc : ∀ i ∈ is, i.count = 4 ∨ i.count = 3) :
    shellFile start is m = .ok
      { coords := m.gids.map m.pos
        nodeMap := m.gids.map (· + 1)
        elemMap := (List.range is.length).map fun i => start + i + 1
        quads := (is.filter fun i => i.count = 4).map fun i => (i.nodes.take i.count).map m.number
        tris := (is.filter fun i => i.count = 3).map fun i => (i.nodes.take i.count).map m.number
        quadType := if ∃ i ∈ is, i.count = 4 then "QUAD4" else "NULL"
        triType := if ∃ i ∈ is, i.count = 3 then "TRI3" else "NULL" } := by
  have ht : nodeTable is = .ok ⟨is.map (·.count), is.flatMap fun i => i.nodes.take i.count⟩ := by
    rw [nodeTable, if_neg]
    rintro ⟨i, hi, h⟩
    have := hn i hi
    omega
  have hb := fun n => blockConnect_eq (m := m) n [] is (by simpa using hn)
  simp only [List.nil_append, List.length_nil] at hb
  have hq : ∀ n : Nat, (0 < ((is.map (·.count)).filter fun s => s = n).length) ↔ ∃ i ∈ is, i.count = n := by
    intro n
    rw [List.length_pos_iff_exists_mem]
    constructor
    · rintro ⟨a, ha⟩
      have h2 := List.of_mem_filter ha
      obtain ⟨i, hi, rfl⟩ := List.mem_map.1 (List.mem_of_mem_filter ha)
      exact ⟨i, hi, by simpa using h2⟩
    · rintro ⟨i, hi, h⟩
      exact ⟨i.count, List.mem_filter.2 ⟨List.mem_map_of_mem hi, by simpa using h⟩⟩
  rw [shellFile, ht]
  simp only [Outcome.ok_bind]
  rw [if_neg (by rw [not_not]; exact (count_both is).2 hc), hb 4, hb 3]
  simp only [hq]

theorem corner_number {m : MeshNodes} {f : ShellFile} (hp : f.coords = m.gids.map m.pos)
    (hm : f.nodeMap = m.gids.map (· + 1)) {n : Nat} (hn : n ∈ m.gids) :
    f.corner (m.number n) = some (n, m.pos n) := by
  have hi := List.idxOf_lt_length_of_mem hn
  have hg : m.gids[m.gids.idxOf n]? = some n := List.getElem?_idxOf hn
  rw [MeshNodes.number, if_pos hn, ShellFile.corner, if_neg (by omega), Nat.add_sub_cancel, hp, hm]
  rw [List.zip_map', List.getElem?_map, hg]
  rfl

end Verif.Storage
