import Verif.Search.Model

/-! Specification vocabulary for C15, and the assumptions about Zoltan. -/

noncomputable section

namespace Verif.Search

open Verif Verif.Mech Verif.Filter

/-- The point `X` lies in the closed box with corners `lo` and `hi`. -/
def InBox (lo hi X : V3) : Prop := ∀ c, lo c ≤ X c ∧ X c ≤ hi c

/-- What is assumed of the Zoltan queries: an answer may name too many processors or points but names
each only once, points named exist, and no processor owning a point in the box and no point in the box
is left out. -/
structure Zoltan.Complete (Z : Zoltan) (x : Nat → V3) (ranks : List (List Nat)) : Prop where
  boxNodup : ∀ lo hi, (Z.boxAssign lo hi).Nodup
  box : ∀ lo hi r own g, ranks[r]? = some own → g ∈ own → InBox lo hi (x g) → r ∈ Z.boxAssign lo hi
  partNodup : ∀ xs lo hi, (Z.partAssign xs lo hi).Nodup
  partBound : ∀ xs lo hi, ∀ i ∈ Z.partAssign xs lo hi, i < xs.length
  part : ∀ (xs : List V3) lo hi (i : Nat) X, xs[i]? = some X → InBox lo hi X → i ∈ Z.partAssign xs lo hi

/-- Recursive coordinate bisection: any two processors are separated by a plane normal to an axis, with no
points of both on the plane. -/
def Separated (x : Nat → V3) (ranks : List (List Nat)) : Prop :=
  ∀ r s : Nat, r ≠ s → ∀ A B, ranks[r]? = some A → ranks[s]? = some B →
    ∃ c, (∀ g ∈ A, ∀ k ∈ B, x g c < x k c) ∨ (∀ g ∈ A, ∀ k ∈ B, x k c < x g c)

/-- The same, but both processors may own points on the separating plane. -/
def WeaklySeparated (x : Nat → V3) (ranks : List (List Nat)) : Prop :=
  ∀ r s : Nat, r ≠ s → ∀ A B, ranks[r]? = some A → ranks[s]? = some B →
    ∃ c, (∀ g ∈ A, ∀ k ∈ B, x g c ≤ x k c) ∨ (∀ g ∈ A, ∀ k ∈ B, x k c ≤ x g c)

/-- Every point is owned by exactly one processor, and every processor owns a point. -/
structure Decomposition (ranks : List (List Nat)) : Prop where
  nodup : ranks.flatten.Nodup
  nonempty : ∀ own ∈ ranks, own ≠ []

/-- Either no filters are given, or one of them is not told to include a point in its own neighborhood (the
default of all filters, BondFilter.h:97). -/
def ExcludesSelf (fs : List BondFilter) : Prop := fs = [] ∨ ∃ f ∈ fs, f.includeSelf = false

/-- The bond between `g` and `k` is cut by none of the filters. -/
def Uncut (fs : List BondFilter) (x : Nat → V3) (g k : Nat) : Prop :=
  ∀ f ∈ fs, f.shape.cuts (x g) (x k) ≠ .ok true

end Verif.Search
