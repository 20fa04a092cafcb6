import Verif.KdTree.Model

/-! Specification vocabulary for the k-d tree. -/

noncomputable section

namespace Verif.KdTree

open Verif Verif.Mech

/-- What is required of `std::sort`: it rearranges the ids, and they are ordered afterwards. -/
def Sorts (S : Sorter) : Prop := ∀ f l, (S f l).Perm l ∧ (S f l).Pairwise fun i j => f i ≤ f j

/-- No two of the first `n` points have the same coordinates. -/
def Distinct (x : Nat → V3) (n : Nat) : Prop := ∀ i < n, ∀ j < n, x i = x j → i = j

/-- All coordinates are finite numbers, `big` being the largest one. -/
def Bounded (x : Nat → V3) (n : Nat) (big : ℝ) : Prop := ∀ i < n, ∀ c, -big ≤ x i c ∧ x i c ≤ big

/-- The middle of `s` and `e` as computed. -/
def middle (rnd : ℝ → ℝ) (s e : ℝ) : ℝ := rnd (s + rnd (rnd (e - s) / 2))

/-- What is required of the rounding for the tree to be right: a difference that is not negative does not become
so, and a middle does not lie above the larger number. -/
structure Fair (rnd : ℝ → ℝ) (x : Nat → V3) (n : Nat) : Prop where
  nonneg : ∀ i < n, ∀ j < n, ∀ c, x i c ≤ x j c → 0 ≤ rnd (x j c - x i c)
  le : ∀ i < n, ∀ j < n, ∀ c, x i c ≤ x j c → middle rnd (x i c) (x j c) ≤ x j c

/-- What is required in addition for the construction to come to an end: different coordinates have a difference
and a middle that lies above the smaller one; equal ones have none. -/
structure Separating (rnd : ℝ → ℝ) (x : Nat → V3) (n : Nat) : Prop where
  zero : rnd 0 = 0
  pos : ∀ i < n, ∀ j < n, ∀ c, x i c < x j c → 0 < rnd (x j c - x i c)
  above : ∀ i < n, ∀ j < n, ∀ c, x i c < x j c → x i c < middle rnd (x i c) (x j c)

/-- The Euclidean distance of two points. -/
def distance (p q : V3) : ℝ := Real.sqrt (∑ c, (p c - q c) ^ 2)

end Verif.KdTree
