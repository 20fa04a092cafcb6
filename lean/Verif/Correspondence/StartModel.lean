import Verif.Correspondence.StressModel

/-!
# Correspondence materials: the state at the beginning of an analysis (model)

Models `CorrespondenceMaterial::initialize`, src/materials/Peridigm_CorrespondenceMaterial.cpp:121-185,
and what Peridigm's constructor gives it (src/core/Peridigm.cpp:516-532, 690-699).
-/

noncomputable section

namespace Verif.Correspondence

open Verif Verif.Neigh Verif.Mech Verif.Tensor
open scoped Classical

/-- `CorrespondenceMaterial::initialize`: left stretches and rotations are one, stresses zero; the shape
tensors are computed only to see whether they can be inverted (they are computed again by every
`computeForce`).  The rates, Cauchy stresses and partial stresses, which are overwritten before they are
read, are left out.
Models src/materials/Peridigm_CorrespondenceMaterial.cpp:121-185. -/
def initialState (B : Body) (coordinates : Nat → V3) (n : Nat) (l : List Nat) (old : Shape) :
    Outcome State := do
  let bonds ← visitedBonds n l
  if (shapeAndGradient B coordinates n bonds old.inv old.grad).code ≠ 0 then .fail .terminate
  else .ok ⟨fun _ => identity, fun _ => identity, fun _ => zero⟩

/-- What the constructor does before the first time step, as far as the material sees it: the blocks are
given the coordinates of the mesh (lines 516-532), the initial conditions `displace` are applied to the
vectors of the analysis only (lines 690-692), and the material is initialised from the data of the
blocks (lines 696-699).  Result: the state of the material and the coordinates `y` of the analysis.
Models src/core/Peridigm.cpp:516-532, 690-699. -/
def begin (B : Body) (displace : (Nat → V3) → Nat → V3) (n : Nat) (l : List Nat) (old : Shape) :
    Outcome (State × (Nat → V3)) := do
  let block := B.x
  let y := displace B.x
  let s ← initialState B block n l old
  .ok (s, y)

end Verif.Correspondence
