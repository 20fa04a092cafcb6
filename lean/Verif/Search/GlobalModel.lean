import Verif.Search.Model
import Verif.Neigh.Rebalance
import Verif.Redist.Model

/-!
# Model of the proximity search over all processors

`ProximitySearch::GlobalProximitySearch`, /repo/src/io/Peridigm_ProximitySearch.cpp:204-299: the search is
done in a decomposition chosen by Zoltan, and its result is brought back into the decomposition of the
caller.  The function is collective and modelled on all processors together.  The decomposition chosen by
`getLoadBalancedDiscretization` (line 240) is a parameter (`balanced`).  Coordinates and radii are functions
of the global id, so the import of lines 242-246, which carries them to the new owners, is the identity.
-/

noncomputable section

namespace Verif.Search

open Verif Verif.Mech Verif.Filter Verif.Neigh Verif.Redist
open scoped Classical

/-- The radii used in the search, Peridigm_ProximitySearch.cpp:248-254. -/
def addedRadius (h : Nat → ℝ) (addition : ℝ) (g : Nat) : ℝ :=
  if addition ≠ 0 then h g + addition else h g

/-- What the search object of processor `r` holds: the search itself, then the shared ids, the overlap map and
the list in local ids, NeighborhoodList.cxx:255-313 and 334-375, read back by
Peridigm_ProximitySearch.cpp:275-287.  (`discretize` is the same three loops, as used on a grid.) -/
def searchPart (Z : Zoltan) (x : Nat → V3) (h : Nat → ℝ) (balanced : List (List Nat)) (fs : List BondFilter)
    (r : Nat) : Outcome NbPart :=
  match search Z x h balanced fs r with
  | .ok ls =>
    match discretize (gridOf (balanced.getD r []) ls) with
    | .ok d => .ok ⟨d.owned, d.overlap, d.data.list⟩
    | .fail e => .fail e
    | .ub => .ub
  | .fail e => .fail e
  | .ub => .ub

/-- `ProximitySearch::GlobalProximitySearch`, Peridigm_ProximitySearch.cpp:204-299: a radius that is not positive
ends the program (213-216); search in the balanced decomposition (256-271, the default filter if none is
given); back to the decomposition `ranks` of the caller (273-298). -/
def globalProximitySearch (Z : Zoltan) (pick1 pick2 : Nat → Nat → Nat) (balanced : List (List Nat))
    (x : Nat → V3) (h : Nat → ℝ) (addition : ℝ) (fs : List BondFilter) (ranks : List (List Nat)) :
    Outcome (List NbPart) :=
  if ∃ own ∈ ranks, ∃ g ∈ own, h g ≤ 0 then .fail .terminate
  else
    match allOk (searchPart Z x (addedRadius h addition) balanced (effectiveFilters fs))
        (List.range balanced.length) with
    | .ok cur => rebalanceLists pick1 pick2 cur ranks
    | .fail e => .fail e
    | .ub => .ub

end Verif.Search
