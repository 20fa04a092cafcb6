import Verif.Neigh.Model
import Mathlib.Data.Real.Basic
import Mathlib.Data.Finset.Basic

/-!
# Tangent matrices (model)

Models `Peridigm::allocateJacobian`, `Peridigm::allocateBlockDiagonalJacobian`, `SerialMatrix`,
`Material::computeFiniteDifferenceJacobian` with central differences (the scheme `computeJacobian` asks
for) and `Peridigm::computeImplicitJacobian`.

Simplifications: exact arithmetic, so that the tests for numbers that are not finite never fire; division
by zero is undefined.  The contributions that processors send to each other in `GlobalAssemble` are
added at once, so the matrix is one object for all processors.  A list of neighborhoods of a
processor stands for those of its blocks one after the other, whose union they are (C12).
-/

noncomputable section

namespace Verif.Tangent

open Verif Verif.Neigh
open scoped Classical

/-- What a processor knows of the mesh: the overlap map (global ids by local id, owned points first), the
number of owned points, and the neighborhood list. -/
structure Proc where
  overlap : List Nat
  owned : Nat
  list : List Nat

/-- The walk over the neighborhood list, giving the neighbors of each owned point.
Models src/core/Peridigm.cpp:4048-4056, 4066-4067 and src/materials/Peridigm_Material.cpp:128-139. -/
def neighborLists (l : List Nat) : Nat → Nat → Outcome (List (List Nat))
  | 0, _ => .ok []
  | n + 1, pos => do
    let k ← readAt l pos
    let ns ← readIds l (pos + 1) k
    let rest ← neighborLists l n (pos + 1 + k)
    .ok (ns :: rest)

/-- The global ids of a list of local ids.
Models src/core/Peridigm.cpp:4055, 4068 and src/materials/Peridigm_Material.cpp:135, 140. -/
def gidsOf (overlap : List Nat) : List Nat → Outcome (List Nat)
  | [] => .ok []
  | i :: is => do
    let g ← readAt overlap i
    let gs ← gidsOf overlap is
    .ok (g :: gs)

/-- The neighborhoods by global id, each led by its point, from point `p` on. -/
def hoodsFrom (overlap : List Nat) : Nat → List (List Nat) → Outcome (List (List Nat))
  | _, [] => .ok []
  | p, ns :: rest => do
    let g ← gidsOf overlap (p :: ns)
    let gs ← hoodsFrom overlap (p + 1) rest
    .ok (g :: gs)

/-- The neighborhoods of a processor.
Models src/core/Peridigm.cpp:4048-4073 and src/materials/Peridigm_Material.cpp:128-142. -/
def Proc.hoods (P : Proc) : Outcome (List (List Nat)) := do
  let nbs ← neighborLists P.list P.owned 0
  hoodsFrom P.overlap 0 nbs

/-! ### Allocation -/

/-- `globalIndices`: the rows of the points of a neighborhood.
Models src/core/Peridigm.cpp:4058-4073 and src/materials/Peridigm_Material.cpp:200-207. -/
def dofIds (D : Nat) (gids : List Nat) : List Nat :=
  gids.flatMap fun g => (List.range D).map fun d => D * g + d

/-- The double loop that couples all indices of a neighborhood.
Models src/core/Peridigm.cpp:4075-4081. -/
def couple (R : Nat → Finset Nat) (idx : List Nat) : Nat → Finset Nat :=
  idx.foldl (fun R i => idx.foldl (fun R j => Function.update R i (insert j (R i))) R) R

/-- `rowEntries`.
Models src/core/Peridigm.cpp:4044-4082. -/
def rowEntries (D : Nat) (hoods : List (List Nat)) : Nat → Finset Nat :=
  hoods.foldl (fun R g => couple R (dofIds D g)) fun _ => ∅

/-- The sparsity of the tangent: the entries inserted by all processors.
Models src/core/Peridigm.cpp:4018-4108. -/
def allocate (D : Nat) : List Proc → Outcome (Nat → Finset Nat)
  | [] => .ok fun _ => ∅
  | P :: Ps => do
    let hs ← P.hoods
    let rest ← allocate D Ps
    .ok fun r => rowEntries D hs r ∪ rest r

/-- The sparsity of the block diagonal tangent over the rows of the points `gids`.
Models src/core/Peridigm.cpp:4129-4160. -/
def allocateBlockDiagonal (gids : List Nat) (r : Nat) : Finset Nat :=
  if r / 3 ∈ gids then {3 * (r / 3), 3 * (r / 3) + 1, 3 * (r / 3) + 2} else ∅

/-! ### The matrix -/

/-- `Epetra_FECrsMatrix` with fixed sparsity. -/
structure Sparse where
  pattern : Nat → Finset Nat
  val : Nat → Nat → ℝ

/-- `PutScalar(0.0)`. Models src/core/Peridigm.cpp:4322. -/
def Sparse.zero (pattern : Nat → Finset Nat) : Sparse := ⟨pattern, fun _ _ => 0⟩

/-- Adding one number; an entry that does not exist is an error.
Models `SumIntoMyValues` and `SumIntoGlobalValues` as used in src/core/Peridigm_SerialMatrix.cpp:97-98,
103-104. -/
def Sparse.add (A : Sparse) (r c : Nat) (x : ℝ) : Outcome Sparse :=
  if c ∈ A.pattern r then
    .ok { A with val := Function.update A.val r (Function.update (A.val r) c (A.val r c + x)) }
  else .fail .terminate

/-- The column is in the column map of the processor: some row it owns has an entry there.
Models `LCID`, src/core/Peridigm_SerialMatrix.cpp:88. -/
def Sparse.hasColumn (A : Sparse) (rows : Nat → Prop) (c : Nat) : Prop := ∃ r, rows r ∧ c ∈ A.pattern r

/-- One row of a dense matrix is added.
Models src/core/Peridigm_SerialMatrix.cpp:95-105. -/
def addRow (S : Nat → ℝ) (r : Nat) (idx : List (Nat × Nat)) (A : Sparse) : Outcome Sparse :=
  idx.foldlM (fun A c => A.add r c.1 (S c.2)) A

/-- `SerialMatrix::addValues` on a processor that owns `rows`.
Models src/core/Peridigm_SerialMatrix.cpp:82-107. -/
def addValues (rows : Nat → Prop) (idx : List Nat) (S : Nat → Nat → ℝ) (A : Sparse) : Outcome Sparse :=
  if ∃ c ∈ idx, ¬ A.hasColumn rows c then .fail .terminate
  else idx.zipIdx.foldlM (fun A r => addRow (S r.2) r.1 idx.zipIdx A) A

/-- `inverseMap`: the last position of an index.
Models src/core/Peridigm_SerialMatrix.cpp:118-127. -/
def inverseMap (idx : List Nat) (c : Nat) : Outcome Nat :=
  match idx.zipIdx.reverse.find? fun x => x.1 = c with
  | some x => .ok x.2
  | none => .fail .terminate

/-- One row of `addBlockDiagonalValues`.
Models src/core/Peridigm_SerialMatrix.cpp:135-175. -/
def addBlockDiagonalRow (idx : List Nat) (S : Nat → ℝ) (A : Sparse) (r : Nat) : Outcome Sparse := do
  let i1 ← inverseMap idx (3 * (r / 3))
  let i2 ← inverseMap idx (3 * (r / 3) + 1)
  let i3 ← inverseMap idx (3 * (r / 3) + 2)
  addRow S r [(3 * (r / 3), i1), (3 * (r / 3) + 1, i2), (3 * (r / 3) + 2, i3)] A

/-- `SerialMatrix::addBlockDiagonalValues`.
Models src/core/Peridigm_SerialMatrix.cpp:110-176. -/
def addBlockDiagonalValues (idx : List Nat) (S : Nat → Nat → ℝ) (A : Sparse) : Outcome Sparse :=
  idx.zipIdx.foldlM (fun A r => addBlockDiagonalRow idx (S r.2) A r.1) A

/-! ### Finite differences -/

/-- The evaluation of a material in a temporary data manager that holds the data of the points `gids`: from
coordinates and velocities to force density.  The arrays are flat, three entries for each point.  What
else the material reads is data of these points, so a function of `gids`. -/
abbrev Kernel := List Nat → (Nat → ℝ) → (Nat → ℝ) → Outcome (Nat → ℝ)

/-- The same for temperature and flux divergence, one entry for each point. -/
abbrev FluxKernel := List Nat → (Nat → ℝ) → Outcome (Nat → ℝ)

/-- Settings.  Models src/materials/Peridigm_Material.cpp:102-112. -/
structure Settings where
  numDof : Nat := 3
  numDisplacementDof : Nat := 3
  displacementOffset : Nat := 0
  thermal : Bool := false
  temperatureOffset : Nat := 0
  epsilon : ℝ
  dt : ℝ

/-- `ScratchMatrix`: dimension and entries, `none` for memory that has not been written.
Models src/core/Peridigm_ScratchMatrix.hpp:54-111. -/
structure Scratch where
  dim : Nat
  val : Nat → Nat → Option ℝ

/-- `Resize` if the matrix is too small.
Models src/materials/Peridigm_Material.cpp:197-198 and src/core/Peridigm_ScratchMatrix.hpp:71-81. -/
def Scratch.fit (S : Scratch) (n : Nat) : Scratch := if S.dim < n then ⟨n, fun _ _ => none⟩ else S

/-- Assignment to an entry.
Models src/core/Peridigm_ScratchMatrix.hpp:92-95. -/
def Scratch.write (S : Scratch) (r c : Nat) (x : ℝ) : Outcome Scratch :=
  if r < S.dim ∧ c < S.dim then
    .ok { S with val := Function.update S.val r (Function.update (S.val r) c (some x)) }
  else .ub

/-- Order in which points are perturbed and forces are read: neighbors first.
Models src/materials/Peridigm_Material.cpp:226-232, 259-264. -/
def visitOrder (n : Nat) : List Nat := (List.range (n - 1)).map (· + 1) ++ [0]

/-- The values of one column of the tangent: difference quotient of the arrays `f1` and `f0` at
`stride * id + d`; `size` is the length of the arrays.
Models src/materials/Peridigm_Material.cpp:259-272 (`stride` and `comps` are `numDof`) and 295-306
(`stride` is 1, `comps` 1). -/
def writeColumn (P : Settings) (n stride comps size offset col : Nat) (f1 f0 : Nat → ℝ) (S : Scratch) :
    Outcome Scratch :=
  (visitOrder n).foldlM (fun S id => (List.range comps).foldlM (fun S d =>
    if stride * id + d < size then
      S.write (P.numDof * id + offset + d) col ((f1 (stride * id + d) - f0 (stride * id + d)) / P.epsilon * 0.5)
    else .ub) S) S

/-- Perturbing one coordinate of point `pid`.
Models src/materials/Peridigm_Material.cpp:235-273. -/
def displacementColumn (P : Settings) (K : Kernel) (gids : List Nat) (y v : Nat → ℝ) (pid : Nat)
    (S : Scratch) (dof : Nat) : Outcome Scratch :=
  let k := P.numDof * pid + dof
  if ¬ k < 3 * gids.length ∨ P.epsilon = 0 ∨ P.dt = 0 then .ub
  else do
    let f0 ← K gids (Function.update y k (y k - P.epsilon)) (Function.update v k (v k - P.epsilon / P.dt))
    let f1 ← K gids (Function.update y k (y k + P.epsilon)) (Function.update v k (v k + P.epsilon / P.dt))
    writeColumn P gids.length P.numDof P.numDof (3 * gids.length) P.displacementOffset
      (P.numDof * pid + P.displacementOffset + dof) f1 f0 S

/-- Perturbing the temperature of point `pid`.
Models src/materials/Peridigm_Material.cpp:275-307. -/
def temperatureColumn (P : Settings) (Q : FluxKernel) (gids : List Nat) (T : Nat → ℝ) (pid : Nat)
    (S : Scratch) : Outcome Scratch :=
  if ¬ pid < gids.length ∨ P.epsilon = 0 then .ub
  else do
    let f0 ← Q gids (Function.update T pid (T pid - P.epsilon))
    let f1 ← Q gids (Function.update T pid (T pid + P.epsilon))
    writeColumn P gids.length 1 1 gids.length P.temperatureOffset
      (P.numDof * pid + P.temperatureOffset) f1 f0 S

/-- All columns of one point.
Models src/materials/Peridigm_Material.cpp:226-308. -/
def perturbPoint (P : Settings) (K : Kernel) (Q : FluxKernel) (gids : List Nat) (y v T : Nat → ℝ)
    (S : Scratch) (pid : Nat) : Outcome Scratch := do
  let S1 ← (List.range P.numDisplacementDof).foldlM (displacementColumn P K gids y v pid) S
  if P.thermal then temperatureColumn P Q gids T pid S1 else .ok S1

/-- The entries of the scratch matrix that are handed on, times the volume; reading memory that was
never written is undefined.
Models src/materials/Peridigm_Material.cpp:310-315. -/
def Scratch.scaled (S : Scratch) (n D : Nat) (vol : Nat → ℝ) : Outcome (Nat → Nat → ℝ) :=
  if ∀ r < n, ∀ c < n, (S.val r c).isSome then
    .ok fun r c => (S.val r c).getD 0 * vol (r / D)
  else .ub

/-- The data of the points `gids` from an array over all points with `s` entries for each; zero
beyond its end, where nothing is read.
Models src/materials/Peridigm_Material.cpp:144-160. -/
def gather (s : Nat) (gids : List Nat) (Y : Nat → ℝ) (k : Nat) : ℝ :=
  match gids[k / s]? with
  | some g => Y (s * g + k % s)
  | none => 0

/-- The fields over all points, by global id. -/
structure Fields where
  y : Nat → ℝ
  v : Nat → ℝ
  T : Nat → ℝ
  vol : Nat → ℝ

/-- `tempBondMap`: the map whose only element, the point, has an entry for each of its neighbors.
`Epetra_BlockMap` throws an exception if an element is to have no entries, so that the program ends at a
point without neighbors.
Models src/materials/Peridigm_Material.cpp:147 and src/materials/Peridigm_ElasticMaterial.cpp:295. -/
def bondMap (gids : List Nat) : Outcome Unit := if gids.length ≤ 1 then .fail .terminate else .ok ()

/-- The local matrix of one neighborhood, and the scratch matrix left behind.  The latter holds unscaled
entries in the model, scaled ones in the code; they are overwritten or not read.
Models src/materials/Peridigm_Material.cpp:144-315. -/
def localMatrix (P : Settings) (K : Kernel) (Q : FluxKernel) (F : Fields) (gids : List Nat) (S : Scratch) :
    Outcome (Scratch × (Nat → Nat → ℝ)) := do
  let _ ← bondMap gids
  let S1 ← (visitOrder gids.length).foldlM
    (perturbPoint P K Q gids (gather 3 gids F.y) (gather 3 gids F.v) (gather 1 gids F.T))
    (S.fit (P.numDof * gids.length))
  let L ← S1.scaled (P.numDof * gids.length) P.numDof (gather 1 gids F.vol)
  .ok (S1, L)

/-- Whether the full tangent or its block diagonal is wanted. -/
inductive Kind where
  | full
  | blockDiagonal

/-- Adding the local matrix.
Models src/materials/Peridigm_Material.cpp:324-331. -/
def addLocal (kind : Kind) (rows : Nat → Prop) (idx : List Nat) (L : Nat → Nat → ℝ) (A : Sparse) :
    Outcome Sparse :=
  match kind with
  | .full => addValues rows idx L A
  | .blockDiagonal => addBlockDiagonalValues idx L A

/-- One pass of the loop over the points of a processor.
Models src/materials/Peridigm_Material.cpp:129-332. -/
def addPoint (P : Settings) (kind : Kind) (K : Kernel) (Q : FluxKernel) (F : Fields) (rows : Nat → Prop)
    (s : Scratch × Sparse) (gids : List Nat) : Outcome (Scratch × Sparse) := do
  let SL ← localMatrix P K Q F gids s.1
  let A ← addLocal kind rows (dofIds P.numDof gids) SL.2 s.2
  .ok (SL.1, A)

/-- The rows of a processor.  Models src/core/Peridigm.cpp:4027-4037. -/
def Proc.rows (P : Proc) (D : Nat) (r : Nat) : Prop := r / D ∈ P.overlap.take P.owned

/-- `computeFiniteDifferenceJacobian` on one processor.
Models src/materials/Peridigm_Material.cpp:70-333. -/
def finiteDifference (P : Settings) (kind : Kind) (K : Kernel) (Q : FluxKernel) (F : Fields) (S : Scratch)
    (pr : Proc) (A : Sparse) : Outcome Sparse := do
  let hs ← pr.hoods
  let s ← hs.foldlM (addPoint P kind K Q F (pr.rows P.numDof)) (S, A)
  .ok s.2

/-- The tangent from all processors; each has its own scratch matrix.
Models src/core/Peridigm_ModelEvaluator.cpp:133-160 and src/core/Peridigm.cpp:4322-4326. -/
def assemble (P : Settings) (kind : Kind) (K : Kernel) (Q : FluxKernel) (F : Fields) (S : Scratch) :
    List Proc → Sparse → Outcome Sparse
  | [], A => .ok A
  | pr :: prs, A => do
    let A1 ← finiteDifference P kind K Q F S pr A
    assemble P kind K Q F S prs A1

/-- `computeJacobian` of the elastic-plastic materials: the kind of tangent that is asked for is not handed on,
so that the default, the full tangent, is assembled.
Models src/materials/Peridigm_ElasticPlasticMaterial.cpp:182-199 and
src/materials/Peridigm_ElasticPlasticHardeningMaterial.cpp:193-210 (the branch with finite differences). -/
def elasticPlasticTangent (P : Settings) (_kind : Kind) (K : Kernel) (Q : FluxKernel) (F : Fields)
    (S : Scratch) (prs : List Proc) (A : Sparse) : Outcome Sparse := assemble P .full K Q F S prs A

/-! ### Implicit dynamics -/

/-- `computeImplicitJacobian`, from the assembled tangent to the matrix of the linear problem.
Models src/core/Peridigm.cpp:4329-4337. -/
def implicitTangent (beta dt : ℝ) (density : Nat → ℝ) (A : Sparse) : Sparse :=
  { A with val := fun r c => A.val r c * (-beta * dt * dt) + if r = c then density (r / 3) else 0 }

end Verif.Tangent
