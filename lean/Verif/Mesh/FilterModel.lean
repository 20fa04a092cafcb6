import Verif.Neigh.Model

/-!
# Model of the option "Omit Bonds Between Blocks"

`createNeighborhoodData` and `filterBonds` of
/repo/src/io/discretization/Peridigm_ExodusDiscretization.cpp, and `filterBonds` of
Peridigm_TextFileDiscretization.cpp, which is the same code.

One processor.  The block id of a point is a function `blk` of its global id; the import of lines 736-742, which
carries the ids to the overlap points, is the identity.  Block ids are doubles in the code, exact here.
-/

namespace Verif.Mesh

open Verif Verif.Neigh

/-- `blockBondingMatrix[i][j]` after the loop for "All": the identity matrix with `n` rows and columns, and
undefined outside of it.
Models src/io/discretization/Peridigm_ExodusDiscretization.cpp:712-731 (TextFileDiscretization.cpp:355-374). -/
def bondingMatrix (n : Nat) (i j : Int) : Outcome Bool :=
  if 0 ≤ i ∧ i < n ∧ 0 ≤ j ∧ j < n then .ok (decide (i = j)) else .ub

/-- The inner loop over the neighbors of a point in the block `b`, from position `pos` on.
Models src/io/discretization/Peridigm_ExodusDiscretization.cpp:764-771. -/
def keepBonded (n : Nat) (ids : List Int) (b : Int) (l : List Nat) : Nat → Nat → Outcome (List Nat)
  | _, 0 => .ok []
  | pos, k + 1 =>
    match readAt l pos with
    | .fail e => .fail e
    | .ub => .ub
    | .ok j =>
      match readAt ids j with
      | .fail e => .fail e
      | .ub => .ub
      | .ok c =>
        match bondingMatrix n (b - 1) (c - 1) with
        | .fail e => .fail e
        | .ub => .ub
        | .ok keep =>
          match keepBonded n ids b l (pos + 1) k with
          | .fail e => .fail e
          | .ub => .ub
          | .ok js => .ok (if keep then j :: js else js)

/-- The loop over the owned points from the `i`-th on; `pos` and `out` are `unfilteredNeighborhoodListIndex`
and the size of the new list so far.  Result: the new list and the new pointers.
Models src/io/discretization/Peridigm_ExodusDiscretization.cpp:754-775. -/
def filterLoop (n : Nat) (ids : List Int) (l : List Nat) : Nat → Nat → Nat → Nat → Outcome (List Nat × List Nat)
  | 0, _, _, _ => .ok ([], [])
  | m + 1, i, pos, out =>
    match readAt ids i with
    | .fail e => .fail e
    | .ub => .ub
    | .ok b =>
      match readAt l pos with
      | .fail e => .fail e
      | .ub => .ub
      | .ok k =>
        match keepBonded n ids b l (pos + 1) k with
        | .fail e => .fail e
        | .ub => .ub
        | .ok js =>
          match filterLoop n ids l m (i + 1) (pos + 1 + k) (out + 1 + js.length) with
          | .fail e => .fail e
          | .ub => .ub
          | .ok (rest, ptrs) => .ok (js.length :: (js ++ rest), out :: ptrs)

/-- `filterBonds`.  `n` is `getNumBlocks()`, the number of entries of the map of blocks; `overlap` lists the
global ids of the overlap points.
Models src/io/discretization/Peridigm_ExodusDiscretization.cpp:709-781 (TextFileDiscretization.cpp:352-424). -/
def filterBonds (command : String) (n : Nat) (blk : Nat → Int) (overlap : List Nat) (d : NeighborhoodData) :
    Outcome NeighborhoodData :=
  if command = "None" then .ok d
  else if command = "All" then
    match filterLoop n (overlap.map blk) d.list d.ownedIDs.length 0 0 0 with
    | .ok (l, ptrs) => .ok ⟨d.ownedIDs, l, ptrs⟩
    | .fail e => .fail e
    | .ub => .ub
  else .fail .runtimeError

/-- The loop of `createNeighborhoodData` that collects the pointers, for `m` points from position `pos` on.
Models src/io/discretization/Peridigm_ExodusDiscretization.cpp:691-697. -/
def pointers (l : List Nat) : Nat → Nat → Outcome (List Nat)
  | 0, _ => .ok []
  | m + 1, pos =>
    match readAt l pos with
    | .fail e => .fail e
    | .ub => .ub
    | .ok k =>
      match pointers l m (pos + 1 + k) with
      | .fail e => .fail e
      | .ub => .ub
      | .ok ps => .ok (pos :: ps)

/-- `ExodusDiscretization::createNeighborhoodData`: `owned` and `overlap` are the maps, `l` the list in local ids
that the proximity search returned.  `LID` of the `i`-th entry of the owned map is `i`, the map having no
repetition.
Models src/io/discretization/Peridigm_ExodusDiscretization.cpp:682-707. -/
def exodusNeighborhood (command : String) (n : Nat) (blk : Nat → Int) (owned overlap l : List Nat) :
    Outcome NeighborhoodData :=
  match pointers l owned.length 0 with
  | .ok ptrs => filterBonds command n blk overlap ⟨owned.map owned.idxOf, l, ptrs⟩
  | .fail e => .fail e
  | .ub => .ub

end Verif.Mesh
