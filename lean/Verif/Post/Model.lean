import Verif.Correspondence.Model
import Mathlib.Analysis.SpecialFunctions.Pow.Real

/-!
# Model of post-processing compute classes

`Compute_Deformation_Gradient`, `Compute_Error`, `Compute_Radius` and `Compute_Bond_Visualization` of /repo/src/compute,
and the part of `Peridigm::initialize` that stores the positions of the nodes of the Exodus elements.

Numbers are exact reals (in particular the file of bonds holds the coordinates themselves, not six digits of them).
Local ids index functions; three consecutive numbers of a vector field are a `V3`.
-/

noncomputable section

namespace Verif.Post

open Verif Verif.Neigh Verif.Mech Verif.Tensor Verif.Correspondence
open scoped Classical

/-! ### Deformation gradient -/

/-- What `Compute_Deformation_Gradient` reads and writes in a block.
Models src/compute/Peridigm_Compute_Deformation_Gradient.cpp:90-101. -/
structure GradBlock where
  body : Body
  y : Nat → V3
  numPoints : Nat
  list : List Nat
  inv : Nat → M9
  grad : Nat → M9

/-- The call for one block: whether the code is not zero, and the block afterwards.
Models src/compute/Peridigm_Compute_Deformation_Gradient.cpp:103-110. -/
def gradBlock (b : GradBlock) : Outcome (Bool × GradBlock) := do
  let bonds ← visitedBonds b.numPoints b.list
  let s := shapeAndGradient b.body b.y b.numPoints bonds b.inv b.grad
  .ok (decide (s.code ≠ 0), { b with inv := s.inv, grad := s.grad })

/-- The loop over the blocks with `retval = retval || ...`: the call is not made if `retval` is set.
Models src/compute/Peridigm_Compute_Deformation_Gradient.cpp:87-111. -/
def gradLoop : Bool → List GradBlock → Outcome (Bool × List GradBlock)
  | r, [] => .ok (r, [])
  | r, b :: bs => do
    let q ← (if r = true then .ok (true, b) else gradBlock b)
    let rest ← gradLoop q.1 bs
    .ok (rest.1, q.2 :: rest.2)

/-- Result of `Compute_Deformation_Gradient::compute`. -/
structure GradResult where
  code : Bool
  warned : Bool
  blocks : List GradBlock

/-- `Compute_Deformation_Gradient::compute` on processor `rank`.
Models src/compute/Peridigm_Compute_Deformation_Gradient.cpp:82-118. -/
def computeGradient (rank : Nat) (bs : List GradBlock) : Outcome GradResult := do
  let r ← gradLoop false bs
  .ok ⟨r.1, r.1 && decide (rank = 0), r.2⟩

/-! ### Error -/

/-- `DBL_MAX`.
Models src/compute/Peridigm_Compute_Error.cpp:130. -/
def dblMax : ℝ := (2 ^ 53 - 1) * 2 ^ 971

/-- The lower limit of integration in direction `c`.
Models src/compute/Peridigm_Compute_Error.cpp:130-146. -/
def lower (c : Fin 3) (ns : List V3) : ℝ := ns.foldl (fun m n => if n c < m then n c else m) dblMax

/-- The upper limit of integration in direction `c`.
Models src/compute/Peridigm_Compute_Error.cpp:130-148. -/
def upper (c : Fin 3) (ns : List V3) : ℝ := ns.foldl (fun m n => if n c > m then n c else m) (-dblMax)

/-- `numX1` etc.: the number of nodes at `v` in direction `c`.
Models src/compute/Peridigm_Compute_Error.cpp:151-170. -/
def numAt (c : Fin 3) (ns : List V3) (v : ℝ) : Nat :=
  ns.foldl (fun k n => if |n c - v| < 1 / 10 ^ 10 then k + 1 else k) 0

/-- `isRectangular`.
Models src/compute/Peridigm_Compute_Error.cpp:171. -/
def isRectangular (ns : List V3) : Bool :=
  decide (numAt 0 ns (lower 0 ns) = 4 ∧ numAt 0 ns (upper 0 ns) = 4 ∧ numAt 1 ns (lower 1 ns) = 4 ∧
    numAt 1 ns (upper 1 ns) = 4 ∧ numAt 2 ns (lower 2 ns) = 4 ∧ numAt 2 ns (upper 2 ns) = 4)

/-- `computeError_1`; `U11` is one.
Models src/compute/Peridigm_Compute_Error.cpp:220-265. -/
def computeError1 (u : V3) (x1 x2 y1 y2 z1 z2 : ℝ) : Outcome ℝ :=
  let h := x2 - x1
  if |y2 - y1 - h| > 10 ^ 12 then .fail .terminate
  else if |z2 - z1 - h| > 10 ^ 12 then .fail .terminate
  else
    let x := x1 + 0.5 * (x2 - x1)
    .ok ((u 0 * u 0 + u 1 * u 1 + u 2 * u 2) * h * h * h -
      (2 / 3) * u 0 * 1 * ((x + h / 2) ^ 3 - (x - h / 2) ^ 3) * h * h +
      0.2 * 1 * 1 * ((x + h / 2) ^ 5 - (x - h / 2) ^ 5) * h * h)

/-- What is read for a point: reference and current position, and the positions `Exodus_Node_1` to `Exodus_Node_8`.
Models src/compute/Peridigm_Compute_Error.cpp:100-127. -/
structure Element where
  x : V3
  y : V3
  nodes : List V3

/-- The error at a point.
Models src/compute/Peridigm_Compute_Error.cpp:116-204. -/
def errorAt (e : Element) : Outcome ℝ :=
  if isRectangular e.nodes = false then .fail .terminate
  else computeError1 (e.y - e.x) (lower 0 e.nodes) (upper 0 e.nodes) (lower 1 e.nodes) (upper 1 e.nodes)
    (lower 2 e.nodes) (upper 2 e.nodes)

/-- The loop over the points of a block, with the sum so far.
Models src/compute/Peridigm_Compute_Error.cpp:114-207. -/
def errorPoints : ℝ → List Element → Outcome (ℝ × List ℝ)
  | g, [] => .ok (g, [])
  | g, e :: es => do
    let v ← errorAt e
    let rest ← errorPoints (g + v) es
    .ok (rest.1, v :: rest.2)

/-- The loop over the blocks of a processor.
Models src/compute/Peridigm_Compute_Error.cpp:94-208. -/
def errorBlocks : ℝ → List (List Element) → Outcome (ℝ × List (List ℝ))
  | g, [] => .ok (g, [])
  | g, b :: bs => do
    let p ← errorPoints g b
    let rest ← errorBlocks p.1 bs
    .ok (rest.1, p.2 :: rest.2)

/-- All processors up to the sum over them.
Models src/compute/Peridigm_Compute_Error.cpp:90-212. -/
def errorRanks : List (List (List Element)) → Outcome (List (ℝ × List (List ℝ)))
  | [] => .ok []
  | r :: rs => do
    let a ← errorBlocks 0 r
    let rest ← errorRanks rs
    .ok (a :: rest)

/-- `Compute_Error::compute` on all processors: the field `Error` by processor, block and point, and `Global_Error`, which
each processor stores in its first block.
Models src/compute/Peridigm_Compute_Error.cpp:89-219. -/
def computeError (ranks : List (List (List Element))) : Outcome (List (List (List ℝ)) × ℝ) := do
  let rs ← errorRanks ranks
  if [] ∈ ranks then .ub
  else .ok (rs.map Prod.snd, (rs.map Prod.fst).sum)

/-- The eight fields `Exodus_Node_1` to `Exodus_Node_8` of an element whose node positions are `ps`; the fields were
zero before and keep what is not overwritten.
Models src/core/Peridigm.cpp:627-665. -/
def exodusNodes (ps : List V3) : List V3 :=
  (List.range 8).map fun i => if i < ps.length then ps.getD i 0 else 0

/-! ### Radius -/

/-- The radius of a point; `pow` of a negative number with this exponent is not a number.
Models src/compute/Peridigm_Compute_Radius.cpp:80-84. -/
def radiusOf (v : ℝ) : Outcome ℝ :=
  let c := 0.75 / Real.arccos (-1)
  if c * v < 0 then .ub else .ok ((c * v) ^ (1 / 3 : ℝ))

/-! ### File of bonds -/

/-- A word, an integer or a number of a text file. -/
inductive Tok where
  | word (s : String)
  | int (n : Nat)
  | num (v : ℝ)

/-- What `Compute_Bond_Visualization` reads in a block: the global ids of the overlap map, the coordinates and the neighbor
list.
Models src/compute/Peridigm_Compute_Bond_Visualization.cpp:99-118. -/
structure VisBlock where
  ids : List Int
  x : Nat → V3
  numOwned : Nat
  list : List Nat

/-- `Epetra_BlockMap::GID`: minus one for a local id that does not exist.
Models the calls at src/compute/Peridigm_Compute_Bond_Visualization.cpp:105, 122 and 134. -/
def gid (ids : List Int) (i : Nat) : Int := ids.getD i (-1)

/-- The coordinates of a block are recorded.
Models src/compute/Peridigm_Compute_Bond_Visualization.cpp:100-110. -/
def recordBlock (m : Int → Option V3) (b : VisBlock) : Int → Option V3 :=
  (List.range b.ids.length).foldl (fun m i => Function.update m (gid b.ids i) (some (b.x i))) m

/-- `coordinates`.
Models src/compute/Peridigm_Compute_Bond_Visualization.cpp:97-111. -/
def recorded (bs : List VisBlock) : Int → Option V3 := bs.foldl recordBlock fun _ => none

/-- `storeData`.
Models src/compute/Peridigm_Compute_Bond_Visualization.cpp:124-129. -/
def storeData (node : Option Int) (g : Int) : Bool :=
  match node with
  | none => true
  | some n => decide (g = n)

/-- `m_specifiedNodes`, from the parameter `Node Id`.
Models src/compute/Peridigm_Compute_Bond_Visualization.cpp:70-74. -/
def specified (nodeId : Option Int) : Option Int := nodeId.map fun n => n - 1

/-- The bonds of a block that are recorded.
Models src/compute/Peridigm_Compute_Bond_Visualization.cpp:115-141. -/
def blockPairs (node : Option Int) (b : VisBlock) : Outcome (List (Int × Int)) := do
  let bonds ← visitedBonds b.numOwned b.list
  .ok ((bonds.filter fun e => storeData node (gid b.ids e.i)).map fun e => (gid b.ids e.i, gid b.ids e.j))

/-- `connectivity`.
Models src/compute/Peridigm_Compute_Bond_Visualization.cpp:113-142. -/
def connectivity (node : Option Int) : List VisBlock → Outcome (List (Int × Int))
  | [] => .ok []
  | b :: bs => do
    let c ← blockPairs node b
    let rest ← connectivity node bs
    .ok (c ++ rest)

/-- `globalNodeIds`: the ids of the recorded bonds, each once, ascending.
Models src/compute/Peridigm_Compute_Bond_Visualization.cpp:137-138 and 144-146. -/
def nodeIds (c : List (Int × Int)) : List Int :=
  ((c.flatMap fun e => [e.1, e.2]).insertionSort (· ≤ ·)).dedup

/-- The points are written; `k` is the number of the next one, `m` is `globalIdToVtkId`.
Models src/compute/Peridigm_Compute_Bond_Visualization.cpp:180-185. -/
def writePoints (coords : Int → Option V3) : Nat → List Int → (Int → Option Nat) →
    Outcome (List Tok × (Int → Option Nat))
  | _, [], m => .ok ([], m)
  | k, g :: gs, m =>
    match coords g with
    | none => .fail .outOfRange
    | some x => do
      let rest ← writePoints coords (k + 1) gs (Function.update m g (some k))
      .ok (.num (x 0) :: .num (x 1) :: .num (x 2) :: rest.1, rest.2)

/-- The cells are written.
Models src/compute/Peridigm_Compute_Bond_Visualization.cpp:190-194. -/
def writeCells (m : Int → Option Nat) : List (Int × Int) → Outcome (List Tok)
  | [] => .ok []
  | e :: es =>
    match m e.1, m e.2 with
    | some a, some b => do
      let rest ← writeCells m es
      .ok (.int 2 :: .int a :: .int b :: rest)
    | _, _ => .fail .outOfRange

/-- `writeVTK`: the contents of the file. (That the file can be opened is not modelled.)
Models src/compute/Peridigm_Compute_Bond_Visualization.cpp:155-202. -/
def writeVTK (ids : List Int) (coords : Int → Option V3) (c : List (Int × Int)) : Outcome (List Tok) := do
  let p ← writePoints coords 0 ids fun _ => none
  let cells ← writeCells p.2 c
  .ok ([.word "# vtk DataFile Version 3.0",
    .word "This file was generated by the Peridigm Bond Visualization Compute Class", .word "ASCII",
    .word "DATASET", .word "UNSTRUCTURED_GRID", .word "POINTS", .int ids.length, .word "float"] ++ p.1 ++
    [.word "CELLS", .int c.length, .int (3 * c.length)] ++ cells ++
    [.word "CELL_TYPES", .int c.length] ++ List.replicate c.length (.int 3))

/-- `Compute_Bond_Visualization::initialize` on one processor: the file it writes.
Models src/compute/Peridigm_Compute_Bond_Visualization.cpp:68-74 and 87-149. -/
def bondFile (nodeId : Option Int) (bs : List VisBlock) : Outcome (List Tok) := do
  let c ← connectivity (specified nodeId) bs
  writeVTK (nodeIds c) (recorded bs) c

end Verif.Post
