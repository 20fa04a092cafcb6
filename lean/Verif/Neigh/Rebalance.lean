import Verif.Neigh.Spec
import Verif.Redist.Model

/-!
# Model of moving a neighbor list to another decomposition

`ProximitySearch::RebalanceNeighborhoodList`, /repo/src/io/Peridigm_ProximitySearch.cpp:55-202.
The function is collective: it is modelled on all processors together, because of its two imports.
Doubles that carry ids or counts are integers here (exact below 2^53).  The code takes the address of
element 0 of possibly empty vectors (lines 114, 142, 178); this is treated as harmless.
-/

namespace Verif.Neigh

open Verif Verif.Redist

/-- The `while` loop of lines 75-80: the count of every entry, from position `pos` on.  Every pass
advances by at least one, so `list.length` passes suffice. -/
def countLoop (l : List Nat) : Nat → Nat → Outcome (List Nat)
  | 0, pos => if pos < l.length then .ub else .ok []
  | fuel + 1, pos =>
    if pos < l.length then
      match readAt l pos with
      | .fail e => .fail e
      | .ub => .ub
      | .ok k =>
        match countLoop l fuel (pos + 1 + k) with
        | .ok ks => .ok (k :: ks)
        | .fail e => .fail e
        | .ub => .ub
    else .ok []

/-- Values written one after the other into a vector of `n` zeros; writing more than `n` is
undefined. -/
def padTo (n : Nat) (vs : List Int) : Outcome (List Int) :=
  if vs.length ≤ n then .ok (vs ++ List.replicate (n - vs.length) 0) else .ub

/-- The number of neighbors of every owned point on one processor, lines 69-80. -/
def currentCounts (owned : List Nat) (l : List Nat) : Outcome (List Int) :=
  match countLoop l l.length 0 with
  | .ok ks => padTo owned.length (ks.map fun (k : Nat) => (k : Int))
  | .fail e => .fail e
  | .ub => .ub

/-- `elementSizeList`, lines 106-112 and 134-140: one entry for a point without neighbors. -/
def elementSizes (counts : List Int) : List Nat :=
  counts.map fun c => if c = 0 then 1 else c.toNat

/-- The loop of lines 119-127 for `n` points from position `pos` on: the neighbors by global id, or
`-1` for a point without neighbors. -/
def neighborValues (ov : List Nat) (l : List Nat) : Nat → Nat → Outcome (List Int)
  | 0, _ => .ok []
  | n + 1, pos =>
    match readAt l pos with
    | .fail e => .fail e
    | .ub => .ub
    | .ok k =>
      match readIds l (pos + 1) k with
      | .fail e => .fail e
      | .ub => .ub
      | .ok lids =>
        match gidsOf ov lids with
        | .fail e => .fail e
        | .ub => .ub
        | .ok gs =>
          match neighborValues ov l n (pos + 1 + k) with
          | .fail e => .fail e
          | .ub => .ub
          | .ok rest =>
            if k = 0 then .ok (-1 :: rest) else .ok (gs.map (fun (g : Nat) => (g : Int)) ++ rest)

/-- One processor's part of the input. -/
structure NbPart where
  owned : List Nat
  overlap : List Nat
  list : List Nat
  deriving DecidableEq, Repr

/-- The two vectors a processor prepares: counts (lines 69-80) and neighbors (lines 98-127). -/
def prepare (c : NbPart) : Outcome (MultiVec Int × MultiVec Int) :=
  match currentCounts c.owned c.list with
  | .fail e => .fail e
  | .ub => .ub
  | .ok counts =>
    match neighborValues c.overlap c.list c.owned.length 0 with
    | .fail e => .fail e
    | .ub => .ub
    | .ok vs =>
      let m : BlockMap := ⟨c.owned, elementSizes counts⟩
      match padTo m.numPoints vs with
      | .ok vs' => .ok (⟨BlockMap.const c.owned 1, [counts]⟩, ⟨m, [vs']⟩)
      | .fail e => .fail e
      | .ub => .ub

/-- The off-processor ids, lines 152-163. -/
def offProcIds (owned : List Nat) (vs : List Int) : List Nat :=
  sortUnique ((vs.filter fun v => v ≠ -1 ∧ v.toNat ∉ owned).map Int.toNat)

/-- The inner loop of lines 196-200: `k` neighbors from position `pos` on. -/
def fillIds (ov : List Nat) (vs : List Int) : Nat → Nat → Outcome (List Nat)
  | _, 0 => .ok []
  | pos, k + 1 =>
    match readAt vs pos with
    | .fail e => .fail e
    | .ub => .ub
    | .ok v =>
      match lidOf ov v.toNat with
      | .fail e => .fail e
      | .ub => .ub
      | .ok l =>
        match fillIds ov vs (pos + 1) k with
        | .fail e => .fail e
        | .ub => .ub
        | .ok ls => .ok (l :: ls)

/-- The loop of lines 190-201 over the points from `i` on; `cs` are their counts. -/
def fillList (m : BlockMap) (ov : List Nat) (vs : List Int) : Nat → List Int → Outcome (List Nat)
  | _, [] => .ok []
  | i, c :: cs =>
    match fillIds ov vs (m.firstPoint i) c.toNat with
    | .fail e => .fail e
    | .ub => .ub
    | .ok ls =>
      match fillList m ov vs (i + 1) cs with
      | .fail e => .fail e
      | .ub => .ub
      | .ok rest => .ok (c.toNat :: (ls ++ rest))

/-- The part of the function after the first import on one processor, lines 129-201.  `counts` are
the imported numbers of neighbors and `recv` performs the second import into a given vector. -/
def finish (owned : List Nat) (counts : List Int) (recv : MultiVec Int → MultiVec Int) :
    Outcome NbPart :=
  let m : BlockMap := ⟨owned, elementSizes counts⟩
  match (recv (MultiVec.zeros m 1)).cols with
  | [vs] =>
    let ov := owned ++ offProcIds owned vs
    match fillList m ov vs 0 counts with
    | .ok l => .ok ⟨owned, ov, l⟩
    | .fail e => .fail e
    | .ub => .ub
  | _ => .ub

/-- One target processor: import of the counts (lines 82-86), then the rest. -/
def receive (pick1 pick2 : Nat → Nat) (srcs : List (MultiVec Int × MultiVec Int))
    (owned : List Nat) : Outcome NbPart :=
  match (importMV pick1 (srcs.map Prod.fst) (MultiVec.zeros (BlockMap.const owned 1) 1)).cols with
  | [counts] => finish owned counts (importMV pick2 (srcs.map Prod.snd))
  | _ => .ub

/-- Target processors from `p` on. -/
def receiveAll (pick1 pick2 : Nat → Nat → Nat) (srcs : List (MultiVec Int × MultiVec Int)) :
    Nat → List (List Nat) → Outcome (List NbPart)
  | _, [] => .ok []
  | p, o :: os =>
    match receive (pick1 p) (pick2 p) srcs o with
    | .fail e => .fail e
    | .ub => .ub
    | .ok r =>
      match receiveAll pick1 pick2 srcs (p + 1) os with
      | .fail e => .fail e
      | .ub => .ub
      | .ok rs => .ok (r :: rs)

/-- `ProximitySearch::RebalanceNeighborhoodList`, src/io/Peridigm_ProximitySearch.cpp:55-202, on all
processors.  `pick1 p g` and `pick2 p g` are the processors from which the two imports take the data
of `g` for processor `p`. -/
def rebalanceLists (pick1 pick2 : Nat → Nat → Nat) (cur : List NbPart) (tgt : List (List Nat)) :
    Outcome (List NbPart) :=
  match allOk prepare cur with
  | .ok srcs => receiveAll pick1 pick2 srcs 0 tgt
  | .fail e => .fail e
  | .ub => .ub

end Verif.Neigh
