import Verif.Common.Outcome
import Verif.Mech.Model

/-!
# The k-d tree behind `JAMSearchTree` (model)

Models src/io/kdtree.h, instantiated as `femanica::kdtree<double,int>`, and
src/io/Peridigm_JAMSearchTree.cpp.

Point `i` has the coordinates `x i`.  The three index arrays (`point_array::map`) are lists; a pair of iterator
and tree size is the part of the array it delimits, so that rearranging a part in place gives a new list.
Comparisons are exact.  The arithmetic of the construction is rounded by `rnd`, which is any function of the
reals; the arithmetic of the queries (corners of the cubes, squares of distances) is exact.  Overflow of
`2*num_points-1` is not modelled.
-/

noncomputable section

namespace Verif.KdTree

open Verif Verif.Mech
open scoped Classical

/-- `std::sort` of ids by one coordinate.  The order of equal coordinates is left open by the library, so the
sorting function is a parameter; what is required of it is stated in Spec.lean.
Models src/io/kdtree.h:216-224, 376-380. -/
abbrev Sorter := (Nat → ℝ) → List Nat → List Nat

/-- A tree node; `null` is the null pointer, `leaf` a node whose two pointers are null (axis and cut of such
a node are never read).
Models src/io/kdtree.h:691-698. -/
inductive Node where
  | null
  | leaf (id : Nat)
  | node (id : Nat) (axis : Fin 3) (cut : ℝ) (left right : Node)

/-! ### Construction -/

/-- The coordinate `*i` of the first entry of a part of an index array.
Models src/io/kdtree.h:262, 432, 461. -/
def firstValue (x : Nat → V3) (c : Fin 3) (l : List Nat) : ℝ := x (l.headD 0) c

/-- The coordinate `*(i+(tree_size-1))` of the last entry.
Models src/io/kdtree.h:431, 462-463. -/
def lastValue (x : Nat → V3) (c : Fin 3) (l : List Nat) : ℝ := x (l.getLastD 0) c

/-- `get_spanning_axis`: the axis with the largest extent, the first one if there are several, and the middle of
the extent.
Models src/io/kdtree.h:402-456. -/
def spanningAxis (rnd : ℝ → ℝ) (x : Nat → V3) (p : Fin 3 → List Nat) : Fin 3 × ℝ :=
  let span := fun c => |rnd (lastValue x c (p c) - firstValue x c (p c))|
  let s0 : Fin 3 × ℝ := (0, span 0)
  let s1 := if span 1 > s0.2 then (1, span 1) else s0
  let s2 := if span 2 > s1.2 then (2, span 2) else s1
  (s2.1, rnd (firstValue x s2.1 (p s2.1) + rnd (s2.2 / 2)))

/-- The `while` loop of `find_median`; the argument is the distance of `adjacent_less` from `n`.
Models src/io/kdtree.h:474-478. -/
def stepBack (x : Nat → V3) (c : Fin 3) (l : List Nat) (value : ℝ) : Nat → Nat
  | 0 => 0
  | j + 1 => if value ≤ x (l.getD (j + 1) 0) c then stepBack x c l value j else j + 1

/-- `find_median` on one axis: the distance of the result from `n`.  `std::lower_bound`, applied to all but the
last entry, returns the end of the leading entries that are below the value; it requires that no later one is.
Models src/io/kdtree.h:458-479. -/
def medianIndex (rnd : ℝ → ℝ) (x : Nat → V3) (c : Fin 3) (l : List Nat) : Outcome Nat :=
  let value := rnd (firstValue x c l + rnd (rnd (lastValue x c l - firstValue x c l) / 2))
  let below := fun i => decide (x i c < value)
  let k := (l.dropLast.takeWhile below).length
  if (l.dropLast.dropWhile below).any below then .ub
  else if k = 0 then .ok 0
  else if value > x (l.getD (k - 1) 0) c then .ok k
  else .ok (stepBack x c l value (k - 1))

/-- The loop that copies a part of an index array into a buffer of `size` entries: ids below the cut from
position `left` on, the others from `right` on.
Models src/io/kdtree.h:512-522, 531-540. -/
def splitLoop (below : Nat → Bool) (size : Nat) : List Nat → Nat → Nat → (Nat → Option Nat) → Outcome (Nat → Option Nat)
  | [], _, _, buf => .ok buf
  | i :: rest, left, right, buf =>
    if below i then
      if left < size then splitLoop below size rest (left + 1) right (Function.update buf left (some i)) else .ub
    else
      if right < size then splitLoop below size rest left (right + 1) (Function.update buf right (some i)) else .ub

/-- Reading the buffer back; an entry that has not been written has no meaning.
Models src/io/kdtree.h:549-554. -/
def readBack (buf : Nat → Option Nat) (size : Nat) : Outcome (List Nat) :=
  if (List.range size).all (fun i => (buf i).isSome) then .ok ((List.range size).map fun i => (buf i).getD 0)
  else .ub

/-- The split of the index array of another axis.  The array of the third axis is first split into the one of the
second axis, whose own values are in the scratch array, and the two are exchanged at the end.
Models src/io/kdtree.h:506-554. -/
def split (below : Nat → Bool) (k : Nat) (l : List Nat) : Outcome (List Nat) := do
  let buf ← splitLoop below l.length l 0 k fun _ => none
  readBack buf l.length

/-- `struct median`.
Models src/io/kdtree.h:388-398. -/
structure Median where
  id : Nat
  leftSize : Nat
  axis : Fin 3
  cut : ℝ
  maps : Fin 3 → List Nat

/-- `find_median`.
Models src/io/kdtree.h:481-565. -/
def findMedian (rnd : ℝ → ℝ) (x : Nat → V3) (p : Fin 3 → List Nat) : Outcome Median := do
  let a := spanningAxis rnd x p
  let k ← medianIndex rnd x a.1 (p a.1)
  let below := fun i => decide (x i a.1 < a.2)
  let q ← split below k (p (a.1 + 1))
  let r ← split below k (p (a.1 + 2))
  .ok { id := (p a.1).getD k 0
        leftSize := k
        axis := a.1
        cut := a.2
        maps := fun c => if c = a.1 then p c else if c = a.1 + 1 then q else r }

/-- A subtree: a leaf if it has one point, otherwise what the recursive call `rec` makes.  The numbers are the nodes in use
and those in the array.
Models src/io/kdtree.h:952-971, 973-989. -/
def child (cap : Nat) (rec : (Fin 3 → List Nat) → Nat → Outcome (Node × Nat)) (axis : Fin 3) (p : Fin 3 → List Nat)
    (used : Nat) : Outcome (Node × Nat) :=
  if (p axis).length = 1 then
    if used < cap then .ok (.leaf ((p axis).headD 0), used + 1) else .ub
  else rec p used

/-- `make_tree`.  Nodes are taken from an array of `cap` nodes; a node beyond its end has no meaning.  The first
argument bounds the depth of the recursion: every call but those of size zero takes a node, so with more
than `cap` levels the array is exceeded before the bound is.
Models src/io/kdtree.h:928-990. -/
def makeTree (rnd : ℝ → ℝ) (x : Nat → V3) (cap : Nat) : Nat → (Fin 3 → List Nat) → Nat → Outcome (Node × Nat)
  | 0, _, _ => .ub
  | fuel + 1, p, used =>
    if (p 0).length = 0 then .ok (.null, used)
    else if cap ≤ used then .ub
    else do
      let m ← findMedian rnd x p
      let l ← child cap (makeTree rnd x cap fuel) m.axis (fun c => (m.maps c).take m.leftSize) (used + 1)
      let r ← child cap (makeTree rnd x cap fuel) m.axis (fun c => (m.maps c).drop m.leftSize) l.2
      .ok (.node m.id m.axis m.cut l.1 r.1, r.2)

/-- `kdtree`: number of points and coordinates, root, number of nodes in use.
Models src/io/kdtree.h:700-728. -/
structure Tree where
  n : Nat
  x : Nat → V3
  root : Node
  nodes : Nat

/-- `get_tree` with the constructors; a null pointer instead of the coordinates is like no points.
Models src/io/kdtree.h:572-577, 729-763 and src/io/Peridigm_JAMSearchTree.cpp:51-54. -/
def getTree (S : Sorter) (rnd : ℝ → ℝ) (x : Nat → V3) (n : Nat) : Outcome Tree :=
  if n = 0 then .ok ⟨0, x, .null, 0⟩
  else if n = 1 then .ok ⟨1, x, .leaf 0, 1⟩
  else do
    let r ← makeTree rnd x (2 * n - 1) (2 * n) (fun c => S (fun i => x i c) (List.range n)) 0
    .ok ⟨n, x, r.1, r.2⟩

/-! ### Ranges -/

/-- `rectangular_range`.
Models src/io/kdtree.h:147-207. -/
structure Range where
  low : V3
  high : V3

/-- `point::operator<=`.
Models src/io/kdtree.h:100-107. -/
def le (p r : V3) : Prop := p 0 ≤ r 0 ∧ p 1 ≤ r 1 ∧ p 2 ≤ r 2

/-- The range with centre `c` and half side `r`.
Models src/io/kdtree.h:159-160. -/
def Range.around (c : V3) (r : ℝ) : Range := ⟨![c 0 - r, c 1 - r, c 2 - r], ![c 0 + r, c 1 + r, c 2 + r]⟩

/-- `intersect`: the coordinate of the axis replaced by the cut.
Models src/io/kdtree.h:131-145. -/
def intersect (p : V3) (axis : Fin 3) (cut : ℝ) : V3 := Function.update p axis cut

/-- `left`.  Models src/io/kdtree.h:166-169. -/
def Range.left (r : Range) (axis : Fin 3) (cut : ℝ) : Range := ⟨r.low, intersect r.high axis cut⟩

/-- `right`.  Models src/io/kdtree.h:171-174. -/
def Range.right (r : Range) (axis : Fin 3) (cut : ℝ) : Range := ⟨intersect r.low axis cut, r.high⟩

/-- `contains` of a point.  Models src/io/kdtree.h:176-178. -/
def Range.contains (r : Range) (p : V3) : Prop := le r.low p ∧ le p r.high

/-- `contains` of a point along an axis.  Models src/io/kdtree.h:181-183. -/
def Range.containsAlong (r : Range) (p : V3) (a : Fin 3) : Prop := r.low a ≤ p a ∧ p a ≤ r.high a

/-- `contains` of a range.  Models src/io/kdtree.h:185-187. -/
def Range.containsRange (r s : Range) : Prop := le r.low s.low ∧ le s.high r.high

/-- `intersects` along an axis.  Models src/io/kdtree.h:193-195. -/
def Range.intersectsAlong (r s : Range) (a : Fin 3) : Prop := ¬ r.high a < s.low a ∧ ¬ s.high a < r.low a

/-- The default constructor; `big` is `numeric_limits<double>::max()`.
Models src/io/kdtree.h:150-154. -/
def Range.largest (big : ℝ) : Range := ⟨fun _ => -big, fun _ => big⟩

/-! ### Queries -/

/-- Whether a pointer is null. -/
def Node.isNull : Node → Bool
  | .null => true
  | _ => false

/-- `report_node`; called with a null pointer it dereferences it.
Models src/io/kdtree.h:912-924. -/
def report : Node → List Nat → Outcome (List Nat)
  | .null, _ => .ub
  | .leaf id, acc => .ok (acc ++ [id])
  | .node _ _ _ l r, acc => do
    let acc ← (if l.isNull then .ok acc else report l acc)
    if r.isNull then .ok acc else report r acc

/-- `search`: node, its range, what has been found so far.
Models src/io/kdtree.h:837-901. -/
def search (x : Nat → V3) (R : Range) : Node → Range → List Nat → Outcome (List Nat)
  | .null, _, _ => .ub
  | .leaf id, _, acc => if R.contains (x id) then .ok (acc ++ [id]) else .ok acc
  | .node _ a cut l r, box, acc => do
    let acc ← (if R.containsRange (box.left a cut) then report l acc
      else if R.intersectsAlong (box.left a cut) a then search x R l (box.left a cut) acc
      else .ok acc)
    if R.containsRange (box.right a cut) then report r acc
    else if R.intersectsAlong (box.right a cut) a then search x R r (box.right a cut) acc
    else .ok acc

/-- `all_neighbors_cube`.
Models src/io/kdtree.h:650-685. -/
def neighborsCube (T : Tree) (big : ℝ) (center : V3) (h : ℝ) : Outcome (List Nat) :=
  if T.n = 0 then .ok []
  else if T.n = 1 then if (Range.around center h).contains (T.x 0) then .ok [0] else .ok []
  else search T.x (Range.around center h) T.root (Range.largest big) []

/-- `point::squared` of the difference, `distance_squared`.
Models src/io/kdtree.h:93-96, 350-357, 642. -/
def distSq (p q : V3) : ℝ := (p 0 - q 0) * (p 0 - q 0) + (p 1 - q 1) * (p 1 - q 1) + (p 2 - q 2) * (p 2 - q 2)

/-- `all_neighbors_within_radius`, `FindPointsWithinRadius`: what has been found in the cube is restricted to the
sphere; ids are collected in the scratch array, which has an entry for each point of the tree.
Models src/io/kdtree.h:611-648 and src/io/Peridigm_JAMSearchTree.cpp:60-63. -/
def neighborsWithin (T : Tree) (big : ℝ) (center : V3) (R : ℝ) : Outcome (List Nat) := do
  let found ← neighborsCube T big center R
  let h := 2 * R / Real.sqrt 3
  let kept := found.filter fun j =>
    decide ((Range.around center (h / 2)).contains (T.x j) ∨ distSq center (T.x j) ≤ R * R)
  if T.n < kept.length then .ub else .ok kept

/-- `nn_search`.
Models src/io/kdtree.h:765-835. -/
def nnSearch (x : Nat → V3) (s : V3) : Node → Range → Outcome Nat
  | .null, _ => .ub
  | .leaf id, _ => .ok id
  | .node id a cut l r, box =>
    if (box.left a cut).containsAlong s a then do
      let c ← nnSearch x s l (box.left a cut)
      let c := if distSq (x id) s < distSq (x c) s then id else c
      if (box.right a cut).intersectsAlong (Range.around s (Real.sqrt (distSq (x c) s))) a then do
        let d ← nnSearch x s r (box.right a cut)
        .ok (if distSq (x d) s < distSq (x c) s then d else c)
      else .ok c
    else do
      let c ← nnSearch x s r (box.right a cut)
      let c := if distSq (x id) s < distSq (x c) s then id else c
      if (box.left a cut).intersectsAlong (Range.around s (Real.sqrt (distSq (x c) s))) a then do
        let d ← nnSearch x s l (box.left a cut)
        .ok (if distSq (x d) s < distSq (x c) s then d else c)
      else .ok c

/-- `nearest_neighbor_search`.
Models src/io/kdtree.h:579-609. -/
def nearestNeighbor (T : Tree) (big : ℝ) (s : List ℝ) : Outcome Nat :=
  if s.length ≠ 3 then .fail .domainError
  else if T.n = 0 then .fail .invalidArgument
  else if T.n = 1 then .ok 0
  else nnSearch T.x ![s.getD 0 0, s.getD 1 0, s.getD 2 0] T.root (Range.largest big)

end Verif.KdTree
