import Verif.Assembly.Model
import Verif.Mech.Model

/-!
# The internal force of a body (model)

Composition of the material kernels (`Verif.Mech`), called for every block on every processor, with
the gathering of the block forces into the global force vector (`Verif.Assembly`): `evalModel`
followed by the export loop.  Models src/core/Peridigm_ModelEvaluator.cpp:57-160 (the internal
force part) and src/core/Peridigm.cpp:1536-1546.
-/

noncomputable section

namespace Verif.Body

open Verif Verif.Mech Verif.Assembly

/-- One block on one processor: the global ids of its overlap map (owned points and ghosts), the
fields and neighborhoods the material sees, and the force the kernel left in the overlap vector. -/
structure Piece where
  gids : List Nat
  config : Config
  nbs : List (List Nat)
  force : Nat → V3

/-- The overlap force vector of a block on one processor.
Models the data exported at src/core/Peridigm.cpp:1543. -/
def Piece.part (p : Piece) : Assembly.Part V3 := p.gids.zipIdx.map fun e => (e.1, p.force e.2)

/-- A block on all processors, with its importer. -/
structure BodyBlock where
  pieces : List Piece
  pick : Nat → Nat → Nat

/-- The force field of a block. -/
def BodyBlock.field (b : BodyBlock) : BlockField V3 :=
  { data := some (b.pieces.map Piece.part), pick := b.pick }

/-- The global force vector.
Models src/core/Peridigm.cpp:1541-1546. -/
def internalForce (global : Assembly.Dist V3) (blocks : List BodyBlock) : Assembly.Dist V3 :=
  gather global (blocks.map BodyBlock.field)

end Verif.Body
