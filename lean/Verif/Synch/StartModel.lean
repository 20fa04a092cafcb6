import Verif.Synch.Model

/-!
# The data before the first step (model)

Models the vectors of `Peridigm` and the data of the blocks as the constructor leaves them before the initial conditions
are applied: `initializeDiscretization`, src/core/Peridigm.cpp:810-926, and src/core/Peridigm.cpp:516-539.

* The value of an element of a scalar or vector field is an element of `V`; see `Verif.Synch.Model`.
* The vectors of the discretization are members of `Disc`.
-/

namespace Verif.Synch

open Verif Verif.Assembly

variable {V : Type}

/-! ## The vectors of the analysis -/

/-- An `Epetra_MultiVector`: the number of its columns and the columns. -/
structure Multi (V : Type) where
  count : Nat
  column : Nat → Assembly.Dist V

/-- The multivectors `oneDimensionalMothership` and `threeDimensionalMothership`. -/
structure Mothership (V : Type) where
  one : Multi V
  three : Multi V

/-- The vectors that are columns of `oneDimensionalMothership`.
Models src/core/Peridigm.cpp:849-867. -/
def oneNames (multiphysics : Bool) : List (String × Nat) :=
  [("blockIDs", 0), ("horizon", 1), ("volume", 2), ("density", 3), ("temperature", 4), ("deltaTemperature", 5),
    ("fluxDivergence", 6), ("concentrationFluxDivergence", 7), ("scalarScratch", 8)] ++
  if multiphysics then
    [("fluidPressureU", 9), ("fluidPressureY", 10), ("fluidPressureV", 11), ("fluidFlow", 12),
      ("fluidPressureDeltaU", 13), ("fluidDensity", 14), ("fluidCompressibility", 15)]
  else []

/-- The vectors that are columns of `threeDimensionalMothership`.
Models src/core/Peridigm.cpp:872-881. -/
def threeNames : List (String × Nat) :=
  [("x", 0), ("u", 1), ("y", 2), ("v", 3), ("a", 4), ("force", 5), ("contactForce", 6), ("externalForce", 7),
    ("deltaU", 8), ("scratch", 9)]

/-- The numbers of columns.
Models src/core/Peridigm.cpp:843-848, 869-871. -/
def oneCount (multiphysics : Bool) : Nat := if multiphysics then 9 + 7 else 9

/-- The number of columns of the other one.
Models src/core/Peridigm.cpp:869. -/
def threeCount : Nat := 10

/-- All vectors zero; `onePoint` is any vector on the map of the points.
Models src/core/Peridigm.cpp:843-871. -/
def newMothership [Zero V] (multiphysics : Bool) (onePoint : Assembly.Dist V) : Mothership V :=
  ⟨⟨oneCount multiphysics, fun _ => zeroOut onePoint⟩, ⟨threeCount, fun _ => zeroOut onePoint⟩⟩

/-- A column; one that does not exist is not defined. -/
def Multi.get (m : Multi V) (k : Nat) : Outcome (Assembly.Dist V) := if k < m.count then .ok (m.column k) else .ub

/-- Writing a column. -/
def Multi.set (m : Multi V) (k : Nat) (d : Assembly.Dist V) : Outcome (Multi V) :=
  if k < m.count then .ok { m with column := Function.update m.column k d } else .ub

/-- The vector of a name; a name without a column is a null pointer.
Models src/core/Peridigm.cpp:849-881. -/
def Mothership.view (multiphysics : Bool) (M : Mothership V) (name : String) : Outcome (Assembly.Dist V) :=
  match (oneNames multiphysics).lookup name with
  | some k => M.one.get k
  | none => match threeNames.lookup name with
    | some k => M.three.get k
    | none => .fail .nullReference

/-- Writing the vector of a name. -/
def Mothership.store (multiphysics : Bool) (M : Mothership V) (name : String) (d : Assembly.Dist V) :
    Outcome (Mothership V) :=
  match (oneNames multiphysics).lookup name with
  | some k => do
    let m ← M.one.set k d
    .ok { M with one := m }
  | none => match threeNames.lookup name with
    | some k => do
      let m ← M.three.set k d
      .ok { M with three := m }
    | none => .fail .nullReference

/-- `blas.COPY` on one processor: as many values as the target has, in order of storage; reading past the end of the
source is not defined.
Models src/core/Peridigm.cpp:895-920. -/
def copyPart (source target : Assembly.Part V) : Outcome (Assembly.Part V) :=
  if source.length < target.length then .ub
  else .ok (List.zipWith (fun t s => (t.1, s.2)) target source)

/-- `blas.COPY` on all processors. -/
def copyDist : Assembly.Dist V → Assembly.Dist V → Outcome (Assembly.Dist V)
  | _, [] => .ok []
  | [], _ :: _ => .ub
  | s :: source, t :: target => do
    let part ← copyPart s t
    let rest ← copyDist source target
    .ok (part :: rest)

/-- Copies a vector of the discretization to a vector of the analysis. -/
def Mothership.copy (multiphysics : Bool) (source : Assembly.Dist V) (name : String) (M : Mothership V) :
    Outcome (Mothership V) := do
  let t ← M.view multiphysics name
  let d ← copyDist source t
  M.store multiphysics name d

/-- What the discretization provides, all on the maps of the owned points. -/
structure Disc (V : Type) where
  blockID : Assembly.Dist V
  horizon : Assembly.Dist V
  cellVolume : Assembly.Dist V
  initialX : Assembly.Dist V

/-- The vectors of the analysis after `initializeDiscretization`.
Models src/core/Peridigm.cpp:810-926. -/
def initializeVectors [Zero V] (multiphysics : Bool) (D : Disc V) : Outcome (Mothership V) := do
  let M0 := newMothership multiphysics D.cellVolume
  let M1 ← M0.copy multiphysics D.blockID "blockIDs"
  let M2 ← M1.copy multiphysics D.horizon "horizon"
  let M3 ← M2.copy multiphysics D.cellVolume "volume"
  let M4 ← M3.copy multiphysics D.initialX "x"
  M4.copy multiphysics D.initialX "y"

/-! ## The data of the blocks -/

/-- The vector of the ids of the points, as numbers.
Models src/core/Peridigm.cpp:516-520. -/
def elementIds (number : Nat → V) (cellVolume : Assembly.Dist V) : Assembly.Dist V :=
  cellVolume.map fun part => part.map fun e => (e.1, number e.1)

/-- The fields that are filled, with step and source.
Models src/core/Peridigm.cpp:524-530. -/
def startTable (number : Nat → V) (D : Disc V) : List (String × Field.Step × Assembly.Dist V) :=
  [("Block_Id", .none, D.blockID), ("Horizon", .none, D.horizon), ("Volume", .none, D.cellVolume),
    ("Model_Coordinates", .none, D.initialX), ("Coordinates", .n, D.initialX), ("Coordinates", .np1, D.initialX),
    ("Element_Id", .none, elementIds number D.cellVolume)]

/-- The fields of the coupled problem; `zero` is the scratch vector filled with zeros.
Models src/core/Peridigm.cpp:532-536. -/
def startFluid (zero : Assembly.Dist V) : List (String × Field.Step × Assembly.Dist V) :=
  [("Fluid_Pressure_Y", .n, zero), ("Fluid_Pressure_Y", .np1, zero)]

/-- One block is filled.
Models src/core/Peridigm.cpp:523-537. -/
def Block.start [Zero V] (number : Nat → V) (multiphysics : Bool) (D : Disc V) (b : Block V) : Block V :=
  (startTable number D ++ if multiphysics then startFluid (zeroOut D.cellVolume) else []).foldl
    (fun b e => b.importData (some e.2.2) e.1 e.2.1) b

/-- All blocks are filled.
Models src/core/Peridigm.cpp:522-538. -/
def startBlocks [Zero V] (number : Nat → V) (multiphysics : Bool) (D : Disc V) (bs : List (Block V)) : List (Block V) :=
  bs.map (·.start number multiphysics D)

end Verif.Synch
