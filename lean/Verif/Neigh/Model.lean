import Verif.Common.Epetra
import Verif.Common.Sort

/-!
# Model of neighborhood lists

Models the flat neighborhood list of `NeighborhoodData` (/repo/src/core/Peridigm_NeighborhoodData.hpp),
the loops that walk over it, its construction in the discretization, and its division among blocks.
Everything here happens on one processor.  Ids and positions are natural numbers; where the code
would store Epetra's `-1` for an id that is not in a map, the model reports `ub`, because the stored
value is later used as an array index.
-/

namespace Verif.Neigh

open Verif

/-- Read `l[i]`; outside the array this is undefined behaviour. -/
def readAt {α : Type} (l : List α) (i : Nat) : Outcome α :=
  match l[i]? with
  | some x => .ok x
  | none => .ub

/-- `NeighborhoodData`, src/core/Peridigm_NeighborhoodData.hpp:56-148: local ids of the owned points,
the flat list, and the position in it at which each owned point's entry begins. -/
structure NeighborhoodData where
  ownedIDs : List Nat
  list : List Nat
  ptr : List Nat
  deriving DecidableEq, Repr

/-! ### Walking over the list -/

/-- One bond as a kernel sees it: position of the owned point in the loop, local id of the neighbor,
position in the bond data. -/
structure Bond where
  i : Nat
  j : Nat
  b : Nat
  deriving DecidableEq, Repr

/-- The inner loop of a kernel, src/materials/elastic.cxx:101-143 (`neighPtr++`, `bondDamage++`): the
`k` bonds of point `p` whose ids begin at position `pos` and whose bond data begin at `b`. -/
def innerLoop (l : List Nat) (p : Nat) : Nat → Nat → Nat → Outcome (List Bond)
  | _, _, 0 => .ok []
  | pos, b, k + 1 =>
    match readAt l pos with
    | .fail e => .fail e
    | .ub => .ub
    | .ok j =>
      match innerLoop l p (pos + 1) (b + 1) k with
      | .fail e => .fail e
      | .ub => .ub
      | .ok bs => .ok (⟨p, j, b⟩ :: bs)

/-- The outer loop of a kernel, src/materials/elastic.cxx:94-145, for the `n` points from `p` on. -/
def outerLoop (l : List Nat) : Nat → Nat → Nat → Nat → Outcome (List Bond)
  | 0, _, _, _ => .ok []
  | n + 1, p, pos, b =>
    match readAt l pos with
    | .fail e => .fail e
    | .ub => .ub
    | .ok k =>
      match innerLoop l p (pos + 1) b k with
      | .fail e => .fail e
      | .ub => .ub
      | .ok bs =>
        match outerLoop l n (p + 1) (pos + 1 + k) (b + k) with
        | .fail e => .fail e
        | .ub => .ub
        | .ok rest => .ok (bs ++ rest)

/-- The bonds visited by a kernel, in the order of the visits: the loop structure shared by
src/materials/elastic.cxx:94-145, src/materials/material_utilities.cxx:260-287,
src/damage/Peridigm_CriticalStretchDamageModel.cpp:136-164 and the other kernels. -/
def visitedBonds (numOwned : Nat) (l : List Nat) : Outcome (List Bond) := outerLoop l numOwned 0 0 0

/-- Read `k` entries from position `pos` on, the loop over one point's neighbors. -/
def readIds (l : List Nat) : Nat → Nat → Outcome (List Nat)
  | _, 0 => .ok []
  | pos, k + 1 =>
    match readAt l pos with
    | .fail e => .fail e
    | .ub => .ub
    | .ok j =>
      match readIds l (pos + 1) k with
      | .fail e => .fail e
      | .ub => .ub
      | .ok js => .ok (j :: js)

/-- Access to one point's neighbors through its entry of the pointer array, e.g.
src/core/Peridigm_BlockBase.cpp:254-258. -/
def neighborsAt (l : List Nat) (pos : Nat) : Outcome (List Nat) :=
  match readAt l pos with
  | .ok k => readIds l (pos + 1) k
  | .fail e => .fail e
  | .ub => .ub

/-! ### The discretization's lists on one processor -/

/-- The part of `QUICKGRID::Data` used here: the ids of the processor's points, and their neighbors by
global id as a flat list with a pointer array (`myGlobalIDs`, `neighborhood`, `neighborhoodPtr`). -/
structure Grid where
  gids : List Nat
  list : List Nat
  ptr : List Nat
  deriving DecidableEq, Repr

/-- The ids collected by the double loop of `Discretization::getSharedGlobalIds`,
src/io/discretization/Peridigm_Discretization.cpp:78-93, before they enter the `std::set`. -/
def offProcessor (g : Grid) : List Nat → Outcome (List Nat)
  | [] => .ok []
  | pos :: ps =>
    match neighborsAt g.list pos with
    | .fail e => .fail e
    | .ub => .ub
    | .ok ids =>
      match offProcessor g ps with
      | .fail e => .fail e
      | .ub => .ub
      | .ok rest => .ok (ids.filter (fun id => id ∉ g.gids) ++ rest)

/-- `Discretization::getSharedGlobalIds`, src/io/discretization/Peridigm_Discretization.cpp:72-103. -/
def sharedIds (g : Grid) : Outcome (List Nat) :=
  match offProcessor g (g.ptr.take g.gids.length) with
  | .ok ids => .ok (sortUnique ids)
  | .fail e => .fail e
  | .ub => .ub

/-- The ids of `Discretization::getOverlapMap`: `getOverlap` with the shared ids,
src/io/discretization/Peridigm_Discretization.cpp:57-70. -/
def overlapIds (g : Grid) : Outcome (List Nat) :=
  match sharedIds g with
  | .ok s => .ok (g.gids ++ s)
  | .fail e => .fail e
  | .ub => .ub

/-- `LID` of an id that is stored for later use as an index. -/
def lidOf (ids : List Nat) (gid : Nat) : Outcome Nat :=
  if gid ∈ ids then .ok (ids.idxOf gid) else .ub

/-- An array whose entries may be uninitialised. -/
abbrev RawArray := List (Option Nat)

/-- Assignment into an array; outside the array this is undefined. -/
def RawArray.write (a : RawArray) (i x : Nat) : Outcome RawArray :=
  if i < a.length then .ok (a.set i (some x)) else .ub

/-- Use of an array: every entry must have been written. -/
def RawArray.values : RawArray → Outcome (List Nat)
  | [] => .ok []
  | none :: _ => .ub
  | some x :: a =>
    match RawArray.values a with
    | .ok l => .ok (x :: l)
    | .fail e => .fail e
    | .ub => .ub

/-- The inner loop of `getLocalNeighborList`,
src/io/discretization/Peridigm_Discretization.cpp:124-128: `n` counts from 1. -/
def writeLocalIds (g : Grid) (ov : List Nat) : Nat → Nat → RawArray → Outcome RawArray
  | _, 0, a => .ok a
  | pos, k + 1, a =>
    match readAt g.list pos with
    | .fail e => .fail e
    | .ub => .ub
    | .ok gid =>
      match lidOf ov gid with
      | .fail e => .fail e
      | .ub => .ub
      | .ok lid =>
        match a.write pos lid with
        | .fail e => .fail e
        | .ub => .ub
        | .ok a' => writeLocalIds g ov (pos + 1) k a'

/-- The outer loop, src/io/discretization/Peridigm_Discretization.cpp:120-129. -/
def writeLocalLists (g : Grid) (ov : List Nat) : List Nat → RawArray → Outcome RawArray
  | [], a => .ok a
  | pos :: ps, a =>
    match readAt g.list pos with
    | .fail e => .fail e
    | .ub => .ub
    | .ok k =>
      match a.write pos k with
      | .fail e => .fail e
      | .ub => .ub
      | .ok a1 =>
        match writeLocalIds g ov (pos + 1) k a1 with
        | .fail e => .fail e
        | .ub => .ub
        | .ok a2 => writeLocalLists g ov ps a2

/-- `Discretization::getLocalNeighborList`,
src/io/discretization/Peridigm_Discretization.cpp:115-131 (and the identical
`NeighborhoodList::createLocalNeighborList`, src/io/pdneigh/NeighborhoodList.cxx:264-280). -/
def localNeighborList (g : Grid) (ov : List Nat) : Outcome (List Nat) :=
  match writeLocalLists g ov (g.ptr.take g.gids.length) (List.replicate g.list.length none) with
  | .ok a => RawArray.values a
  | .fail e => .fail e
  | .ub => .ub

/-- Local ids of a list of global ids (`getLocalOwnedIds`,
src/io/discretization/Peridigm_Discretization.cpp:105-113). -/
def lidsOf (ov : List Nat) : List Nat → Outcome (List Nat)
  | [] => .ok []
  | gid :: gids =>
    match lidOf ov gid with
    | .fail e => .fail e
    | .ub => .ub
    | .ok l =>
      match lidsOf ov gids with
      | .fail e => .fail e
      | .ub => .ub
      | .ok ls => .ok (l :: ls)

/-- What a discretization hands to the blocks: owned ids, overlap ids, neighborhood data. -/
structure Disc where
  owned : List Nat
  overlap : List Nat
  data : NeighborhoodData
  deriving DecidableEq, Repr

/-- `createMaps` and `createNeighborhoodData` of `PdQuickGridDiscretization`,
src/io/discretization/Peridigm_PdQuickGridDiscretization.cpp:234-276, and of
`TextFileDiscretization` without block filtering,
src/io/discretization/Peridigm_TextFileDiscretization.cpp:309-348. -/
def discretize (g : Grid) : Outcome Disc :=
  match overlapIds g with
  | .fail e => .fail e
  | .ub => .ub
  | .ok ov =>
    match lidsOf ov g.gids, localNeighborList g ov with
    | .ok o, .ok l => .ok ⟨g.gids, ov, ⟨o, l, g.ptr⟩⟩
    | .fail e, _ => .fail e
    | _, .fail e => .fail e
    | _, _ => .ub

/-! ### The bond map -/

/-- The loop of `createBondMapAndCheckForZeroNeighbors`,
src/io/discretization/Peridigm_Discretization.cpp:257-282: global ids and element sizes of the
entries; points without neighbors are left out. -/
def bondEntries (gids : List Nat) (l : List Nat) : Nat → Nat → Nat → Outcome (List (Nat × Nat))
  | 0, _, _ => .ok []
  | n + 1, i, pos =>
    match readAt l pos with
    | .fail e => .fail e
    | .ub => .ub
    | .ok k =>
      match bondEntries gids l n (i + 1) (pos + (1 + k)) with
      | .fail e => .fail e
      | .ub => .ub
      | .ok rest =>
        match readAt gids i with
        | .fail e => .fail e
        | .ub => .ub
        | .ok gid => if 0 < k then .ok ((gid, k) :: rest) else .ok rest

/-- `createBondMapAndCheckForZeroNeighbors`,
src/io/discretization/Peridigm_Discretization.cpp:239-288. -/
def bondMap (d : Disc) : Outcome BlockMap :=
  match bondEntries d.owned d.data.list d.data.ownedIDs.length 0 0 with
  | .ok es => .ok ⟨es.map Prod.fst, es.map Prod.snd⟩
  | .fail e => .fail e
  | .ub => .ub

/-! ### Blocks -/

/-- The maps of one block, src/core/Peridigm_BlockBase.hpp (`ownedScalarPointMap`,
`overlapScalarPointMap`, `ownedScalarBondMap`; the vector point maps have the same ids). -/
structure BlockMaps where
  owned : List Nat
  overlap : List Nat
  bonds : BlockMap
  deriving DecidableEq, Repr

/-- Loop at src/core/Peridigm_BlockBase.cpp:139-144: ids of the owned points of block `b`, the `n`
points from local id `i` on.  Block ids are stored as doubles in the code and as numbers here. -/
def blockOwned (gids blockIds : List Nat) (b : Nat) : Nat → Nat → Outcome (List Nat)
  | 0, _ => .ok []
  | n + 1, i =>
    match readAt blockIds i, readAt gids i, blockOwned gids blockIds b n (i + 1) with
    | .ok bi, .ok gid, .ok rest => if bi = b then .ok (gid :: rest) else .ok rest
    | _, _, _ => .ub

/-- Loop at src/core/Peridigm_BlockBase.cpp:150-157 over the entries of the global bond map. -/
def blockBonds (gids blockIds : List Nat) (b : Nat) : List (Nat × Nat) → Outcome (List (Nat × Nat))
  | [] => .ok []
  | (gid, k) :: es =>
    match lidOf gids gid with
    | .fail e => .fail e
    | .ub => .ub
    | .ok lid =>
      match readAt blockIds lid, blockBonds gids blockIds b es with
      | .ok bi, .ok rest => if bi = b then .ok ((gid, k) :: rest) else .ok rest
      | _, _ => .ub

/-- `GID(lid)` for every id of a list; ids outside the map are undefined. -/
def gidsOf (ov : List Nat) : List Nat → Outcome (List Nat)
  | [] => .ok []
  | lid :: lids =>
    match readAt ov lid with
    | .fail e => .fail e
    | .ub => .ub
    | .ok g =>
      match gidsOf ov lids with
      | .fail e => .fail e
      | .ub => .ub
      | .ok gs => .ok (g :: gs)

/-- Loop at src/core/Peridigm_BlockBase.cpp:191-200: the neighbors of the block's points. -/
def blockNeighbors (ov blockIds : List Nat) (b : Nat) (l : List Nat) :
    Nat → Nat → Nat → Outcome (List Nat)
  | 0, _, _ => .ok []
  | n + 1, i, pos =>
    match readAt l pos with
    | .fail e => .fail e
    | .ub => .ub
    | .ok k =>
      match readAt blockIds i with
      | .fail e => .fail e
      | .ub => .ub
      | .ok bi =>
        match blockNeighbors ov blockIds b l n (i + 1) (pos + 1 + k) with
        | .fail e => .fail e
        | .ub => .ub
        | .ok rest =>
          if bi = b then
            match readIds l (pos + 1) k with
            | .fail e => .fail e
            | .ub => .ub
            | .ok lids =>
              match gidsOf ov lids with
              | .fail e => .fail e
              | .ub => .ub
              | .ok gs => .ok (gs ++ rest)
          else .ok rest

/-- `BlockBase::createMapsFromGlobalMaps`, src/core/Peridigm_BlockBase.cpp:119-231. -/
def createMaps (d : Disc) (bm : BlockMap) (blockIds : List Nat) (b : Nat) : Outcome BlockMaps :=
  match blockOwned d.owned blockIds b d.owned.length 0,
      blockBonds d.owned blockIds b (bm.gids.zip bm.sizes),
      blockNeighbors d.overlap blockIds b d.data.list d.data.ownedIDs.length 0 0 with
  | .ok own, .ok bonds, .ok nbs =>
    .ok ⟨own, own ++ sortUnique (nbs.filter fun x => x ∉ own),
      ⟨bonds.map Prod.fst, bonds.map Prod.snd⟩⟩
  | _, _, _ => .ub

/-- The loop of `createNeighborhoodDataFromGlobalNeighborhoodData`,
src/core/Peridigm_BlockBase.cpp:250-261, for the remaining owned ids; `acc` is the list so far. -/
def blockLists (d : Disc) (ov : List Nat) : List Nat → List Nat → List Nat → List Nat →
    Outcome NeighborhoodData
  | [], ids, acc, ptr => .ok ⟨ids, acc, ptr⟩
  | gid :: gids, ids, acc, ptr =>
    match lidOf ov gid, lidOf d.overlap gid with
    | .ok own, .ok lid =>
      match readAt d.data.ptr lid with
      | .fail e => .fail e
      | .ub => .ub
      | .ok pos =>
        match readAt d.data.list pos with
        | .fail e => .fail e
        | .ub => .ub
        | .ok k =>
          match readIds d.data.list (pos + 1) k with
          | .fail e => .fail e
          | .ub => .ub
          | .ok lids =>
            match gidsOf d.overlap lids with
            | .fail e => .fail e
            | .ub => .ub
            | .ok gs =>
              match lidsOf ov gs with
              | .fail e => .fail e
              | .ub => .ub
              | .ok ls =>
                blockLists d ov gids (ids ++ [own]) (acc ++ k :: ls) (ptr ++ [acc.length])
    | _, _ => .ub

/-- `BlockBase::createNeighborhoodDataFromGlobalNeighborhoodData`,
src/core/Peridigm_BlockBase.cpp:233-285. -/
def blockNeighborhood (d : Disc) (m : BlockMaps) : Outcome NeighborhoodData :=
  blockLists d m.overlap m.owned [] [] []

/-- A block after `BlockBase::initialize`, src/core/Peridigm_BlockBase.cpp:59-77. -/
structure Block where
  maps : BlockMaps
  data : NeighborhoodData
  deriving DecidableEq, Repr

/-- `BlockBase::initialize` (maps, then neighborhood), src/core/Peridigm_BlockBase.cpp:59-77. -/
def initBlock (d : Disc) (bm : BlockMap) (blockIds : List Nat) (b : Nat) : Outcome Block :=
  match createMaps d bm blockIds b with
  | .fail e => .fail e
  | .ub => .ub
  | .ok m =>
    match blockNeighborhood d m with
    | .ok nd => .ok ⟨m, nd⟩
    | .fail e => .fail e
    | .ub => .ub

/-- From the grid to one block: `discretize`, bond map, `initialize`. -/
def blockOf (g : Grid) (blockIds : List Nat) (b : Nat) : Outcome Block :=
  match discretize g with
  | .fail e => .fail e
  | .ub => .ub
  | .ok d =>
    match bondMap d with
    | .ok bm => initBlock d bm blockIds b
    | .fail e => .fail e
    | .ub => .ub

end Verif.Neigh
