import Verif.Neigh.Rebalance

/-!
# Model of the contact manager's rebalance and contact search

`ContactManager::rebalance` and the functions it calls, /repo/src/core/Peridigm_ContactManager.cpp:486-866.
The function is collective and is modelled on all processors together.  Not modelled here: the imports of the
mothership vectors (561-574, the same kind of import as in `Verif.Redist`), the contact blocks (577-591) and
the importers (601-602).  The new decomposition (load balancing in `currentConfigurationDecomp`, 605-642) and
the result of the search (`PDNEIGH::NeighborhoodList`, 712-716) are inputs: each processor gets the global ids
it shall own, and a list in the neighbor list layout with global ids.  Doubles that carry ids or counts are
integers here (exact below 2^53).
-/

namespace Verif.Contact

open Verif Verif.Redist Verif.Neigh

/-- What a processor's contact manager holds between two rebalances: `oneDimensionalContactMap`,
`oneDimensionalOverlapContactMap`, `neighborhoodData`, `bondContactMap` and `contactNeighborhoodData`,
Peridigm_ContactManager.hpp (members), set in Peridigm_ContactManager.cpp:549-558 and 594-598. -/
structure Part where
  owned : List Nat
  overlap : List Nat
  list : List Nat
  bond : BlockMap
  contactOwned : List Nat
  contact : List Int
  deriving DecidableEq, Repr

/-- The number of bonds of one point, Peridigm_ContactManager.cpp:653-658. -/
def numberOfBonds (bond : BlockMap) (gid : Nat) : Outcome Int :=
  match bond.lid gid with
  | none => .ok 0
  | some l =>
    match bond.sizes[l]? with
    | some n => .ok (n : Int)
    | none => .ub

/-- The rebalanced bond map from the imported counts, Peridigm_ContactManager.cpp:664-685: only points with a
positive count. -/
def newBondMap (owned : List Nat) (counts : List Int) : BlockMap :=
  let kept := (owned.zip counts).filter fun x => 0 < x.2
  ⟨kept.map Prod.fst, kept.map fun x => x.2.toNat⟩

/-- The loop over the neighbors of one point, Peridigm_ContactManager.cpp:760-764: `k` entries of the list from
`pos` on, written to the positions from `idx` on of a vector of length `n`. -/
def pointGids (ov l : List Nat) (n : Nat) : Nat → Nat → Nat → Outcome (List Int)
  | 0, _, _ => .ok []
  | k + 1, pos, idx =>
    match readAt l pos with
    | .fail e => .fail e
    | .ub => .ub
    | .ok lid =>
      if n ≤ idx then .fail .rangeError
      else
        match readAt ov lid with
        | .fail e => .fail e
        | .ub => .ub
        | .ok g =>
          match pointGids ov l n k (pos + 1) (idx + 1) with
          | .fail e => .fail e
          | .ub => .ub
          | .ok rest => .ok ((g : Int) :: rest)

/-- The loop over the owned points, Peridigm_ContactManager.cpp:758-765. -/
def neighborGids (ov l : List Nat) (n : Nat) : Nat → Nat → Nat → Outcome (List Int)
  | 0, _, _ => .ok []
  | m + 1, pos, idx =>
    match readAt l pos with
    | .fail e => .fail e
    | .ub => .ub
    | .ok k =>
      match pointGids ov l n k (pos + 1) idx with
      | .fail e => .fail e
      | .ub => .ub
      | .ok gs =>
        match neighborGids ov l n m (pos + 1 + k) (idx + k) with
        | .fail e => .fail e
        | .ub => .ub
        | .ok rest => .ok (gs ++ rest)

/-- The vectors a processor prepares for the imports: the numbers of bonds
(Peridigm_ContactManager.cpp:650-659) and the neighbors by global id (754-765). -/
def prepareContact (c : Part) : Outcome (MultiVec Int × MultiVec Int) :=
  match allOk (numberOfBonds c.bond) c.owned with
  | .fail e => .fail e
  | .ub => .ub
  | .ok counts =>
    match neighborGids c.overlap c.list c.bond.numPoints c.owned.length 0 0 with
    | .fail e => .fail e
    | .ub => .ub
    | .ok vs =>
      match padTo c.bond.numPoints vs with
      | .ok vs' => .ok (⟨BlockMap.const c.owned 1, [counts]⟩, ⟨c.bond, [vs']⟩)
      | .fail e => .fail e
      | .ub => .ub

/-- `k` entries of a vector from `pos` on. -/
def readVals (vs : List Int) : Nat → Nat → Outcome (List Int)
  | _, 0 => .ok []
  | pos, k + 1 =>
    match readAt vs pos with
    | .fail e => .fail e
    | .ub => .ub
    | .ok v =>
      match readVals vs (pos + 1) k with
      | .fail e => .fail e
      | .ub => .ub
      | .ok rest => .ok (v :: rest)

/-- `bondedNeighbors`, Peridigm_ContactManager.cpp:724-734. -/
def bondedNeighbors (bond : BlockMap) (vs : List Int) (gid : Nat) : Outcome (List Int) :=
  match bond.lid gid with
  | none => .ok []
  | some l =>
    match bond.sizes[l]? with
    | none => .ub
    | some n => readVals vs (bond.firstPoint l) n

/-- The loop over the points of the search, Peridigm_ContactManager.cpp:718-748: for each point the neighbors
the search found and that are not bonded. -/
def searchLoop (bond : BlockMap) (vs : List Int) (search : List Nat) :
    List Nat → Nat → Outcome (List (Nat × List Nat))
  | [], _ => .ok []
  | gid :: gids, pos =>
    match bondedNeighbors bond vs gid with
    | .fail e => .fail e
    | .ub => .ub
    | .ok bonded =>
      match readAt search pos with
      | .fail e => .fail e
      | .ub => .ub
      | .ok k =>
        match readIds search (pos + 1) k with
        | .fail e => .fail e
        | .ub => .ub
        | .ok found =>
          match searchLoop bond vs search gids (pos + 1 + k) with
          | .fail e => .fail e
          | .ub => .ub
          | .ok rest => .ok ((gid, found.filter fun g => (g : Int) ∉ bonded) :: rest)

/-- `contactNeighborGlobalIDs` as a map: the lists of equal keys are appended,
Peridigm_ContactManager.cpp:721 and 743. -/
def contactOf (found : List (Nat × List Nat)) (gid : Nat) : List Nat :=
  (found.filter fun x => x.1 = gid).flatMap Prod.snd

/-- The ids that must be ghosted: those of the bonds (Peridigm_ContactManager.cpp:509-515) and those of the
contact search (744-745), joined in a set (526-528). -/
def ghostIds (owned : List Nat) (vs : List Int) (found : List (Nat × List Nat)) : List Nat :=
  sortUnique (((vs.map Int.toNat).filter fun g => g ∉ owned) ++
    ((found.flatMap Prod.snd).filter fun g => g ∉ owned))

/-- `LID` with the check of Peridigm_ContactManager.cpp:785 and 811. -/
def checkedLid (ov : List Nat) (gid : Nat) : Outcome Nat :=
  if gid ∈ ov then .ok (ov.idxOf gid) else .fail .rangeError

/-- The loop of `createRebalancedNeighborhoodData`, Peridigm_ContactManager.cpp:797-818. -/
def bondLists (ov : List Nat) (bond : BlockMap) (vs : List Int) : List Nat → Outcome (List Nat)
  | [] => .ok []
  | gid :: gids =>
    match bondedNeighbors bond vs gid with
    | .fail e => .fail e
    | .ub => .ub
    | .ok bonded =>
      match allOk (fun (v : Int) => checkedLid ov v.toNat) bonded with
      | .fail e => .fail e
      | .ub => .ub
      | .ok lids =>
        match bondLists ov bond vs gids with
        | .fail e => .fail e
        | .ub => .ub
        | .ok rest => .ok (bonded.length :: (lids ++ rest))

/-- `LID` as stored in a contact list: `-1` for an id that is not in the map,
Peridigm_ContactManager.cpp:861. -/
def rawLid (ov : List Nat) (gid : Nat) : Int :=
  if gid ∈ ov then (ov.idxOf gid : Int) else -1

/-- The loop of `createRebalancedContactNeighborhoodData`, Peridigm_ContactManager.cpp:849-863. -/
def contactLists (ov : List Nat) (found : List (Nat × List Nat)) : List Nat → Outcome (List Int)
  | [] => .ok []
  | gid :: gids =>
    if gid ∉ found.map Prod.fst then .fail .rangeError
    else
      match contactLists ov found gids with
      | .fail e => .fail e
      | .ub => .ub
      | .ok rest =>
        .ok (((contactOf found gid).length : Int) :: ((contactOf found gid).map (rawLid ov) ++ rest))

/-- The part of the rebalance after the import of the neighbors on one processor,
Peridigm_ContactManager.cpp:509-558: `vs` are the imported neighbors. -/
def finishContact (owned : List Nat) (bond : BlockMap) (vs : List Int) (search : List Nat) : Outcome Part :=
  match searchLoop bond vs search owned 0 with
  | .fail e => .fail e
  | .ub => .ub
  | .ok found =>
    let ov := owned ++ ghostIds owned vs found
    match allOk (checkedLid ov) owned with
    | .fail e => .fail e
    | .ub => .ub
    | .ok ids =>
      match bondLists ov bond vs owned with
      | .fail e => .fail e
      | .ub => .ub
      | .ok l =>
        match contactLists ov found owned with
        | .fail e => .fail e
        | .ub => .ub
        | .ok cl => .ok ⟨owned, ov, l, bond, ids, cl⟩

/-- One target processor, Peridigm_ContactManager.cpp:495-558. -/
def receiveContact (pick1 pick2 : Nat → Nat) (srcs : List (MultiVec Int × MultiVec Int))
    (owned search : List Nat) : Outcome Part :=
  match (importMV pick1 (srcs.map Prod.fst) (MultiVec.zeros (BlockMap.const owned 1) 1)).cols with
  | [counts] =>
    let bond := newBondMap owned counts
    match (importMV pick2 (srcs.map Prod.snd) (MultiVec.zeros bond 1)).cols with
    | [vs] => finishContact owned bond vs search
    | _ => .ub
  | _ => .ub

/-- The target processors from `p` on. -/
def receiveContactAll (pick1 pick2 : Nat → Nat → Nat) (srcs : List (MultiVec Int × MultiVec Int)) :
    Nat → List (List Nat × List Nat) → Outcome (List Part)
  | _, [] => .ok []
  | p, (o, s) :: os =>
    match receiveContact (pick1 p) (pick2 p) srcs o s with
    | .fail e => .fail e
    | .ub => .ub
    | .ok r =>
      match receiveContactAll pick1 pick2 srcs (p + 1) os with
      | .fail e => .fail e
      | .ub => .ub
      | .ok rs => .ok (r :: rs)

/-- What the load balancing and the search deliver in one rebalance: on every processor the ids it shall own and
the result of the search; and the processors from which the two imports take their data. -/
structure Round where
  tgt : List (List Nat × List Nat)
  pick1 : Nat → Nat → Nat
  pick2 : Nat → Nat → Nat

/-- `ContactManager::rebalance` from the check of the step number on, on all processors,
Peridigm_ContactManager.cpp:488-603. -/
def rebalanceContact (freq : Int) (step : Nat) (r : Round) (cur : List Part) : Outcome (List Part) :=
  if freq = 0 then .ub
  else if Int.tmod step freq ≠ 0 then .ok cur
  else
    match allOk prepareContact cur with
    | .ok srcs => receiveContactAll r.pick1 r.pick2 srcs 0 r.tgt
    | .fail e => .fail e
    | .ub => .ub

end Verif.Contact
