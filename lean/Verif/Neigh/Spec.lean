import Verif.Neigh.Model

/-! Specification vocabulary for C09, C10 and C11. -/

namespace Verif.Neigh

/-- The flat encoding of a list of neighborhoods: for every point the number of its neighbors
followed by their ids. -/
def encode (nbs : List (List Nat)) : List Nat := nbs.flatMap fun ns => ns.length :: ns

/-- The pointer array: where each point's entry begins. -/
def offsets (nbs : List (List Nat)) : List Nat :=
  (List.range nbs.length).map fun i => (encode (nbs.take i)).length

/-- The processor's points `gids` with neighbors `nbs`, by global id. -/
def gridOf (gids : List Nat) (nbs : List (List Nat)) : Grid := ⟨gids, encode nbs, offsets nbs⟩

/-- A point of the mesh on this processor: its global id, its neighbors by global id in order, and the
block it belongs to. -/
structure Pt where
  gid : Nat
  nbrs : List Nat
  block : Nat
  deriving DecidableEq, Repr

/-- The grid data of a list of points. -/
def meshGrid (T : List Pt) : Grid := gridOf (T.map Pt.gid) (T.map Pt.nbrs)

/-- The points of block `b`. -/
def inBlock (T : List Pt) (b : Nat) : List Pt := T.filter fun t => t.block = b

/-- What the code builds for block `b` of the mesh. -/
def meshBlock (T : List Pt) (b : Nat) : Verif.Outcome Block :=
  blockOf (meshGrid T) (T.map Pt.block) b

end Verif.Neigh
