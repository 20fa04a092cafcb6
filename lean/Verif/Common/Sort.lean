import Mathlib.Data.List.Sort
import Mathlib.Data.List.Destutter
import Mathlib.Tactic.Common

/-!
# `std::sort` followed by `std::unique`, and `std::set`

The code repeatedly removes duplicates with `sort`, `unique`, `erase`, or by inserting into a
`std::set<int>` and iterating over it.  Both produce the strictly increasing list of the values
present.
-/

namespace Verif

/-- The increasing list of the values of `l`, each once (`std::sort` + `std::unique` + `erase`, or
iteration over a `std::set<int>` holding the values of `l`). -/
def sortUnique (l : List Nat) : List Nat := (l.insertionSort (· ≤ ·)).dedup

theorem mem_sortUnique {l : List Nat} {x : Nat} : x ∈ sortUnique l ↔ x ∈ l := by
  simp [sortUnique]

theorem nodup_sortUnique (l : List Nat) : (sortUnique l).Nodup := List.nodup_dedup _

theorem sorted_sortUnique (l : List Nat) : (sortUnique l).Pairwise (· < ·) := by
  have h1 : (l.insertionSort (· ≤ ·)).Pairwise (· ≤ ·) := List.pairwise_insertionSort _ l
  have h2 : (sortUnique l).Pairwise (· ≤ ·) := h1.sublist (List.dedup_sublist _)
  have h3 := nodup_sortUnique l
  exact (h2.and h3).imp (fun h => lt_of_le_of_ne h.1 h.2)

/-- Plain `std::sort`. -/
def sortIds (l : List Nat) : List Nat := l.insertionSort (· ≤ ·)

theorem mem_sortIds {l : List Nat} {x : Nat} : x ∈ sortIds l ↔ x ∈ l := by
  simp [sortIds]

theorem sortIds_perm (l : List Nat) : (sortIds l).Perm l := List.perm_insertionSort _ _

theorem sorted_sortIds (l : List Nat) : (sortIds l).Pairwise (· ≤ ·) :=
  List.pairwise_insertionSort _ l

theorem length_sortIds (l : List Nat) : (sortIds l).length = l.length :=
  (sortIds_perm l).length_eq

theorem sortIds_eq_nil {l : List Nat} : sortIds l = [] ↔ l = [] := by
  rw [← List.length_eq_zero_iff, length_sortIds, List.length_eq_zero_iff]

end Verif
