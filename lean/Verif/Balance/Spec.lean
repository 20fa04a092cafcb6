import Verif.Balance.Model

/-!
# What a grid holds, and what Zoltan promises
-/

namespace Verif.Balance

open Verif Verif.Neigh

/-- The grid holds these points in this order, with their data; nothing is marked for export.  (Points may share
an entry of the list of neighbors.) -/
def Holds (g : GridData) (pts : List Pt) : Prop :=
  g.numPoints = pts.length ∧ g.ids = pts.map Pt.gid ∧ (∀ a ∈ pts, a.x.length = g.dim) ∧
  g.X = pts.flatMap Pt.x ∧ g.V = pts.map Pt.vol ∧ g.ptrs.length = pts.length ∧
  (∀ (k : Nat) a i, pts[k]? = some a → g.ptrs[k]? = some i →
    ∃ pre post, g.nbs = pre ++ (a.nbs.length :: a.nbs) ++ post ∧ pre.length = i) ∧
  g.flags = List.replicate pts.length false ∧ g.numExport = 0

/-- The words that a point needs. -/
def width (dim : Nat) (a : Pt) : Nat := 2 * dim + 2 + (1 + a.nbs.length)

/-- The points of `pts` that are not sent. -/
def staying (pts : List Pt) (sent : List Nat) : List Pt :=
  ((List.range pts.length).filter fun k => k ∉ sent).filterMap fun k => pts[k]?

/-- The points of the processors with the given local ids. -/
def arriving (pts : Nat → List Pt) (from_ : List (Nat × Nat)) : List Pt :=
  from_.filterMap fun o => (pts o.1)[o.2]?

/-- What Zoltan promises, for `n` processors that hold the points `pts`; `origin q` lists where the imports of processor
`q` come from (processor and local id). -/
structure Keeps (P : Plan) (n : Nat) (gs : Nat → GridData) (pts : Nat → List Pt)
    (origin : Nat → List (Nat × Nat)) : Prop where
  /-- a point is sent at most once -/
  once : ∀ p < n, ((P.exports p).map Prod.fst).Nodup
  /-- points of the processor are sent to processors -/
  valid : ∀ p < n, ∀ e ∈ P.exports p, e.1 < (pts p).length ∧ e.2 < n
  /-- every point has a place in the buffer -/
  places : ∀ p < n, (P.sendIdx p).length = (P.exports p).length
  /-- the places are inside of the buffer -/
  room : ∀ p < n, ∀ (j : Nat) e i a, (P.exports p)[j]? = some e → (P.sendIdx p)[j]? = some i →
    (pts p)[e.1]? = some a → i + width (gs p).dim a ≤ (P.sendBuf p).length
  /-- they do not overlap -/
  apart : ∀ p < n, ∀ (j j' : Nat) e i i' a, j < j' → (P.exports p)[j]? = some e → (P.sendIdx p)[j]? = some i →
    (P.sendIdx p)[j']? = some i' → (pts p)[e.1]? = some a → i + width (gs p).dim a ≤ i'
  /-- what is sent to a processor is received there, in any order -/
  all : ∀ q < n, (origin q).Perm
    ((List.range n).flatMap fun p => ((P.exports p).filter fun e => e.2 = q).map fun e => (p, e.1))
  /-- with its global id -/
  named : ∀ q < n, P.imports q = (arriving pts (origin q)).map Pt.gid
  /-- every point has a place in the buffer of the receiver -/
  landing : ∀ q < n, (P.recvIdx q).length = (origin q).length
  /-- and there stand the words that the sender packed -/
  arrives : ∀ q < n, ∀ (k j : Nat) p e i i' a s, (origin q)[k]? = some (p, e.1) → (P.exports p)[j]? = some e →
    (P.sendIdx p)[j]? = some i → (P.recvIdx q)[k]? = some i' → (pts p)[e.1]? = some a →
    packOn P p (gs p) = .ok s →
    slice (P.recvBuf q) i' (width (gs p).dim a) = slice s.2 i (width (gs p).dim a)

end Verif.Balance
