import Verif.Neigh.Model

/-!
# Model of the migration of points in load balancing

`getLoadBalancedDiscretization` and the query functions of /repo/src/io/pdneigh/PdZoltan.cxx:229-342 and 432-831, and
`allocatePdGridData`.  Zoltan itself is a parameter (`Plan`): which points go where, where their data stand in the
buffers, and what the buffers hold on arrival; its errors are not modelled.  Buffers consist of words of four bytes; an
int is one word, a double is two, and its value does not matter here.  (Positions in the buffers are multiples of four
bytes.)  The loops that fill the new arrays are modelled by the list of the new points, from which the arrays are made.
-/

namespace Verif.Balance

open Verif Verif.Neigh

/-- A double, as its two words. -/
abbrev Dbl := Nat × Nat

/-- `QuickGridData`; the arrays are flat.
Models src/io/mesh_input/quick_grid/QuickGridData.h:56-72. -/
structure GridData where
  dim : Nat
  numPoints : Nat
  size : Nat
  numExport : Nat
  unPack : Bool
  ids : List Nat
  X : List Dbl
  V : List Dbl
  nbs : List Nat
  ptrs : List Nat
  flags : List Bool

/-- `n` entries from `pos` on. -/
def slice {α : Type} (l : List α) (pos n : Nat) : Outcome (List α) :=
  if pos + n ≤ l.length then .ok ((l.drop pos).take n) else .ub

/-- `memcpy` into the buffer. -/
def put (buf : List Nat) (pos : Nat) (ws : List Nat) : Outcome (List Nat) :=
  if pos + ws.length ≤ buf.length then .ok (buf.take pos ++ ws ++ buf.drop (pos + ws.length)) else .ub

/-- The words of doubles. -/
def words : List Dbl → List Nat
  | [] => []
  | d :: ds => d.1 :: d.2 :: words ds

/-- Words read as doubles. -/
def doubles : List Nat → List Dbl
  | a :: b :: r => (a, b) :: doubles r
  | _ => []

/-- `zoltanQuery_pointSizeInBytes` for one point, in words.
Models src/io/pdneigh/PdZoltan.cxx:473-493. -/
def pointSize (g : GridData) (id : Nat) : Outcome Nat := do
  let i ← readAt g.ptrs id
  let n ← readAt g.nbs i
  .ok (2 * g.dim + 2 + 1 + n)

/-- One point is packed.
Models src/io/pdneigh/PdZoltan.cxx:551-583. -/
def packPoint (g : GridData) (id pos : Nat) (buf : List Nat) : Outcome (List Nat) := do
  let x ← slice g.X (g.dim * id) g.dim
  let buf ← put buf pos (words x)
  let v ← readAt g.V id
  let buf ← put buf (pos + 2 * g.dim) (words [v])
  let i ← readAt g.ptrs id
  let n ← readAt g.nbs i
  let l ← slice g.nbs i (1 + n)
  put buf (pos + 2 * g.dim + 2) l

/-- The loop over the points to be packed, each with its place in the buffer.
Models src/io/pdneigh/PdZoltan.cxx:544-585. -/
def packLoop (g : GridData) : List (Nat × Nat) → List Nat → Outcome (List Nat)
  | [], buf => .ok buf
  | e :: es, buf => do
    let buf ← packPoint g e.1 e.2 buf
    packLoop g es buf

/-- `exportFlag`: the exported points are marked.
Models src/io/pdneigh/PdZoltan.cxx:520-524 and 553-554. -/
def mark (n : Nat) (exports : List Nat) : List Bool :=
  exports.foldl (fun f id => f.set id true) (List.replicate n false)

/-- `zoltanQuery_packPointsMultiFunction`: the points `exports` go to the places `idx` of the buffer.
Models src/io/pdneigh/PdZoltan.cxx:496-588. -/
def pack (g : GridData) (exports idx buf : List Nat) : Outcome (GridData × List Nat) := do
  let buf ← packLoop g (exports.zip idx) buf
  .ok ({ g with flags := mark g.numPoints exports, numExport := exports.length }, buf)

/-- A point with its data. -/
structure Pt where
  gid : Nat
  x : List Dbl
  vol : Dbl
  nbs : List Nat

/-- A point that stays.
Models src/io/pdneigh/PdZoltan.cxx:656-682 and 702-709. -/
def keepPoint (g : GridData) (p : Nat) : Outcome Pt := do
  let x ← slice g.X (g.dim * p) g.dim
  let v ← readAt g.V p
  let gid ← readAt g.ids p
  let i ← readAt g.ptrs p
  let n ← readAt g.nbs i
  let l ← slice g.nbs (i + 1) n
  .ok ⟨gid, x, v, l⟩

/-- The loops over the old points: those not marked are copied.
Models src/io/pdneigh/PdZoltan.cxx:652-685 and 697-713. -/
def keepPoints (g : GridData) : Nat → Nat → Outcome (List Pt)
  | 0, _ => .ok []
  | m + 1, p => do
    let f ← readAt g.flags p
    if f = false then do
      let a ← keepPoint g p
      let rest ← keepPoints g m (p + 1)
      .ok (a :: rest)
    else keepPoints g m (p + 1)

/-- A point is read from the place `pos` of the buffer.
Models src/io/pdneigh/PdZoltan.cxx:727-781. -/
def importPoint (dim : Nat) (buf : List Nat) (gid pos : Nat) : Outcome Pt := do
  let xw ← slice buf pos (2 * dim)
  let vw ← slice buf (pos + 2 * dim) 2
  let n ← readAt buf (pos + 2 * dim + 2)
  let l ← slice buf (pos + 2 * dim + 3) n
  let v ← readAt (doubles vw) 0
  .ok ⟨gid, doubles xw, v, l⟩

/-- The loop over the imported points.
Models src/io/pdneigh/PdZoltan.cxx:724-783. -/
def importPoints (dim : Nat) (buf : List Nat) : List (Nat × Nat) → Outcome (List Pt)
  | [] => .ok []
  | e :: es => do
    let a ← importPoint dim buf e.1 e.2
    let rest ← importPoints dim buf es
    .ok (a :: rest)

/-- `computeSizeNewNeighborhoodList`.
Models src/io/pdneigh/PdZoltan.cxx:801-829. -/
def newSize (dim : Nat) (buf : List Nat) : List (Nat × Nat) → Nat → Outcome Nat
  | [], s => .ok s
  | e :: es, s => do
    let n ← readAt buf (e.2 + 2 * dim + 2)
    newSize dim buf es (s + (1 + n))

/-- `newNeighborhoodPtr` and the running size.
Models src/io/pdneigh/PdZoltan.cxx:673-680 and 772-775. -/
def newPtrs : Nat → List Pt → List Nat
  | _, [] => []
  | s, a :: as => s :: newPtrs (s + (1 + a.nbs.length)) as

/-- The arrays of the new grid: allocated for `newNum` points and filled from the start, undefined if there are
more.
Models src/io/pdneigh/PdZoltan.cxx:627 and 785-798; src/io/mesh_input/quick_grid/QuickGrid.cxx:168-241. -/
def assemble (dim newNum size : Nat) (pts : List Pt) : Outcome GridData :=
  let l := pts.flatMap fun a => a.nbs.length :: a.nbs
  if pts.length ≤ newNum ∧ l.length ≤ size then
    .ok ⟨dim, newNum, size, 0, false,
      pts.map Pt.gid ++ List.replicate (newNum - pts.length) 0,
      (pts.flatMap Pt.x) ++ List.replicate (dim * (newNum - pts.length)) (0, 0),
      pts.map Pt.vol ++ List.replicate (newNum - pts.length) (0, 0),
      l ++ List.replicate (size - l.length) 0,
      newPtrs 0 pts ++ List.replicate (newNum - pts.length) 0,
      List.replicate newNum false⟩
  else .ub

/-- `zoltanQuery_unPackPointsMultiFunction`.
Models src/io/pdneigh/PdZoltan.cxx:590-799. -/
def unpack (g : GridData) (imports idx buf : List Nat) : Outcome GridData :=
  if g.numPoints < g.numExport then .ub
  else do
    let kept ← keepPoints g g.numPoints 0
    let size ← newSize g.dim buf (imports.zip idx) (kept.map fun a => 1 + a.nbs.length).sum
    let new ← importPoints g.dim buf (imports.zip idx)
    assemble g.dim (g.numPoints - g.numExport + imports.length) size (kept ++ new)

/-- What Zoltan decides and does, by processor: the points to be sent (local id and destination) and their places in
the buffer, the points to be received (global id) and their places, and the buffers before packing and on arrival. -/
structure Plan where
  exports : Nat → List (Nat × Nat)
  sendIdx : Nat → List Nat
  sendBuf : Nat → List Nat
  imports : Nat → List Nat
  recvIdx : Nat → List Nat
  recvBuf : Nat → List Nat

/-- The first half of `Zoltan_Migrate` on processor `q`; nothing is packed if there is nothing to send. -/
def packOn (P : Plan) (q : Nat) (g : GridData) : Outcome (GridData × List Nat) :=
  if P.exports q = [] then .ok (g, P.sendBuf q)
  else pack g ((P.exports q).map Prod.fst) (P.sendIdx q) (P.sendBuf q)

/-- `getLoadBalancedDiscretization` on processor `q`: `Zoltan_Migrate` unpacks if there is something to receive;
otherwise it is done here, unless the grid has been unpacked before.
Models src/io/pdneigh/PdZoltan.cxx:229-342. -/
def balance (P : Plan) (q : Nat) (g : GridData) : Outcome GridData := do
  let s ← packOn P q g
  let g ← if P.imports q = [] then .ok s.1 else unpack s.1 (P.imports q) (P.recvIdx q) (P.recvBuf q)
  if g.unPack = true then unpack g [] [] [] else .ok g

end Verif.Balance
