import Verif.Filter.Model
import Verif.Neigh.Model
import Mathlib.Data.List.Sort

/-!
# Model of the parallel neighbor search

Models `createAndAddNeighborhood` and `buildNeighborhoodList` of
/repo/src/io/pdneigh/NeighborhoodList.cxx, `constructFrameSet` of /repo/src/io/utilities/Sortable.cxx and
`FindPointsWithinRadius` of /repo/src/io/Peridigm_ZoltanSearchTree.cpp.

The processors are a list; processor `r` owns the points with the global ids `ranks[r]`.  Coordinates and
search radii are functions of the global id.  The two Zoltan queries are parameters of the model
(`Zoltan`); what is assumed of them is stated in Spec.lean.  Numbers are exact reals.
-/

noncomputable section

namespace Verif.Search

open Verif Verif.Mech Verif.Filter
open scoped Classical

/-- The answers of the Zoltan library.
* `boxAssign lo hi`: the processors returned by `Zoltan_LB_Box_Assign` for the box with corners `lo`, `hi`,
  NeighborhoodList.cxx:451.
* `partAssign xs lo hi`: the indices into `xs` that `Zoltan_LB_Box_PP_Assign` together with
  `partToCoordIdx` yields on a search tree built from the points `xs`,
  Peridigm_ZoltanSearchTree.cpp:54-130 and 221-239. -/
structure Zoltan where
  boxAssign : V3 → V3 → List Nat
  partAssign : List V3 → V3 → V3 → List Nat

/-- The lower corner of `PointCenteredBoundingBox`, src/io/utilities/Vector3D.h:196-204. -/
def boxLo (x : V3) (h : ℝ) : V3 := ![x 0 - h, x 1 - h, x 2 - h]

/-- The upper corner of `PointCenteredBoundingBox`, src/io/utilities/Vector3D.h:196-204. -/
def boxHi (x : V3) (h : ℝ) : V3 := ![x 0 + h, x 1 + h, x 2 + h]

/-- The largest owned search radius, NeighborhoodList.cxx:382-386. -/
def maxHorizon (hs : List ℝ) : ℝ := hs.foldl (fun m h => if h > m then h else m) 0

/-- Local ids sorted by the coordinate `c`, Sortable.cxx:236-246. `std::sort` leaves the order of equal
coordinates open; only the set of ids before and after a value is used. -/
def sortedMap (xs : List V3) (c : Fin 3) : List Nat :=
  (List.range xs.length).insertionSort (fun i j => (xs.getD i 0) c ≤ (xs.getD j 0) c)

/-- The ids added to the frame set for one axis, Sortable.cxx:255-296: those up to `upper_bound(min+horizon)`
and those from `upper_bound(max-horizon)` on. Without points the first entry of an empty array is read. -/
def frameAxis (xs : List V3) (horizon : ℝ) (c : Fin 3) : Outcome (List Nat) :=
  let m := sortedMap xs c
  match m.head?, m.getLast? with
  | some iMin, some iMax =>
    let lo := (xs.getD iMin 0) c + horizon
    let hi := (xs.getD iMax 0) c - horizon
    .ok (m.takeWhile (fun i => decide ((xs.getD i 0) c ≤ lo)) ++
         m.dropWhile (fun i => decide ((xs.getD i 0) c ≤ hi)))
  | _, _ => .ub

/-- `constructFrameSet`, Sortable.cxx:225-300. The result is a `std::set`. -/
def constructFrameSet (xs : List V3) (horizon : ℝ) : Outcome (List Nat) :=
  match frameAxis xs horizon 0, frameAxis xs horizon 1, frameAxis xs horizon 2 with
  | .ok a, .ok b, .ok c => .ok (Verif.sortUnique (a ++ b ++ c))
  | .fail f, _, _ => .fail f
  | _, .fail f, _ => .fail f
  | _, _, .fail f => .fail f
  | _, _, _ => .ub

/-- What one processor sends: pairs of target processor and local id, NeighborhoodList.cxx:434-477. Each
frame point goes to the processors its own box reaches, except to the own processor. -/
def sends (Z : Zoltan) (xs : List V3) (hs : List ℝ) (rank : Nat) (frame : List Nat) : List (Nat × Nat) :=
  frame.flatMap (fun id =>
    ((Z.boxAssign (boxLo (xs.getD id 0) (hs.getD id 0)) (boxHi (xs.getD id 0) (hs.getD id 0))).filter
      (fun proc => decide (rank ≠ proc))).map (fun proc => (proc, id)))

/-- The send list of processor `s`, NeighborhoodList.cxx:377-477. -/
def sendsOf (Z : Zoltan) (x : Nat → V3) (h : Nat → ℝ) (ranks : List (List Nat)) (s : Nat) :
    Outcome (List (Nat × Nat)) :=
  let own := ranks.getD s []
  match constructFrameSet (own.map x) (maxHorizon (own.map h)) with
  | .ok frame => .ok (sends Z (own.map x) (own.map h) s frame)
  | .fail f => .fail f
  | .ub => .ub

/-- The global ids received by processor `r`, NeighborhoodList.cxx:480-593. The messages are taken in the
order of the sending processors. -/
def received (Z : Zoltan) (x : Nat → V3) (h : Nat → ℝ) (ranks : List (List Nat)) (r : Nat) :
    List Nat → Outcome (List Nat)
  | [] => .ok []
  | s :: rest =>
    match sendsOf Z x h ranks s, received Z x h ranks r rest with
    | .ok ps, .ok more =>
      .ok ((ps.filter (fun pi => decide (pi.1 = r))).map (fun pi => (ranks.getD s []).getD pi.2 0) ++ more)
    | .fail f, _ => .fail f
    | _, .fail f => .fail f
    | _, _ => .ub

/-- The overlap points of processor `r`: its own, then the received ones, NeighborhoodList.cxx:549-593. -/
def overlapIds (Z : Zoltan) (x : Nat → V3) (h : Nat → ℝ) (ranks : List (List Nat)) (r : Nat) :
    Outcome (List Nat) :=
  match received Z x h ranks r (List.range ranks.length) with
  | .ok more => .ok (ranks.getD r [] ++ more)
  | .fail f => .fail f
  | .ub => .ub

/-- `FindPointsWithinRadius`, Peridigm_ZoltanSearchTree.cpp:214-247. -/
def findPointsWithinRadius (Z : Zoltan) (xs : List V3) (point : V3) (R : ℝ) : List Nat :=
  (Z.partAssign xs (boxLo point R) (boxHi point R)).filter (fun idx =>
    let X := xs.getD idx 0
    decide ((X 0 - point 0) * (X 0 - point 0) + (X 1 - point 1) * (X 1 - point 1) +
      (X 2 - point 2) * (X 2 - point 2) ≤ R * R))

/-- The entries whose flag is not set, NeighborhoodList.cxx:732-738. -/
def unflagged : List Nat → List Bool → List Nat
  | uid :: tree, b :: flags => if b then unflagged tree flags else uid :: unflagged tree flags
  | _, _ => []

/-- The neighbors of owned point `p`, NeighborhoodList.cxx:646-666 (nothing found: exception) and 697-747, as
local ids of the overlap points. -/
def buildOne (Z : Zoltan) (xOverlap : List V3) (fs : List BondFilter) (p : Nat) (pt : V3) (R : ℝ) :
    Outcome (List Nat) :=
  let treeList := findPointsWithinRadius Z xOverlap pt R
  if treeList.length = 0 then .fail .runtimeError
  else
    let sorted := treeList.insertionSort (· ≤ ·)
    match runFilters fs pt p (fun uid => xOverlap.getD uid 0) sorted (List.replicate sorted.length false) with
    | .ok flags => .ok (unflagged sorted flags)
    | .fail f => .fail f
    | .ub => .ub

/-- The loop over the owned points, NeighborhoodList.cxx:697, and the change from local to global ids,
605-615. `p` is the local id of the first remaining point. -/
def buildAll (Z : Zoltan) (xOverlap : List V3) (ids : List Nat) (fs : List BondFilter) (h : Nat → ℝ)
    (x : Nat → V3) (p : Nat) : List Nat → Outcome (List (List Nat))
  | [] => .ok []
  | g :: rest =>
    match buildOne Z xOverlap fs p (x g) (h g) with
    | .ok ns =>
      match buildAll Z xOverlap ids fs h x (p + 1) rest with
      | .ok more => .ok (ns.map (fun n => ids.getD n 0) :: more)
      | .fail f => .fail f
      | .ub => .ub
    | .fail f => .fail f
    | .ub => .ub

/-- The filters used: the default filter if none was given, NeighborhoodList.cxx:164-166. -/
def effectiveFilters (fs : List BondFilter) : List BondFilter :=
  if fs.length = 0 then [⟨.default, false⟩] else fs

/-- The search of processor `r`, NeighborhoodList.cxx:137-171 and 377-761: for each owned point the global ids
of its neighbors. (The flat array with the counts in between is `Verif.Neigh.encode` of this.) -/
def search (Z : Zoltan) (x : Nat → V3) (h : Nat → ℝ) (ranks : List (List Nat)) (fs : List BondFilter)
    (r : Nat) : Outcome (List (List Nat)) :=
  match overlapIds Z x h ranks r with
  | .ok ids => buildAll Z (ids.map x) ids (effectiveFilters fs) h x 0 (ranks.getD r [])
  | .fail f => .fail f
  | .ub => .ub

end Verif.Search
