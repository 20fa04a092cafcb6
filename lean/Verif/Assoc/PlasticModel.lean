import Verif.Assoc.OutputModel
import Verif.Return.Model

/-!
# The perfectly plastic bond-associated correspondence material (model)

The material differs from the elastic one in `computeCauchyStress`, which it evaluates for all owned points and then for
all their bonds.  Entries of points that are not owned are not written; in the model they keep the values of step N.
-/

noncomputable section

namespace Verif.Assoc

open Verif Verif.Neigh Verif.Mech Verif.Tensor
open Verif.Correspondence (perfectPoint)
open Verif.Return (Fields MatState)
open scoped Classical

/-- `updateElasticPerfectlyPlasticCauchyStress` without flying point flag, and the bond version without it: the loop over
points or bonds.  `old` are the fields of step N, `new` those of step N+1 as found.
Models src/materials/elastic_plastic_correspondence.cxx:437-624 and 920-1194. -/
def perfectAll (bulk shear yield dt : ℝ) (D : Nat → M9) (old new : Fields) (ks : List Nat) : Outcome Fields :=
  ks.foldlM (fun f k => do
    let o ← perfectPoint bulk shear yield dt (D k) (old.stress k) (old.eqps k)
    .ok (f.put false k o)) new

/-- Fields of step N; of the von Mises stress and the triaxiality there is one state only, which is written before it is
read. -/
def fieldsOf (stress : Nat → M9) (eqps : Nat → ℝ) : Fields := ⟨stress, fun _ => 0, eqps, fun _ => 0⟩

/-- The stresses that the loop leaves.  They do not depend on the plastic strain (`fields_stress`), which the model takes as
zero here.
Models src/materials/Peridigm_ElasticPlasticBondAssociatedCorrespondenceMaterial.cpp:119-238. -/
def perfectUpdate (bulk shear yield : ℝ) (ks : List Nat) : Update := fun dt D s => do
  let f ← perfectAll bulk shear yield dt D (fieldsOf s fun _ => 0) (fieldsOf s fun _ => 0) ks
  .ok f.stress

/-- The plastic strains of points and bonds at step N: `Equivalent_Plastic_Strain`, `Bond_Equivalent_Plastic_Strain`.
Models src/materials/Peridigm_ElasticPlasticBondAssociatedCorrespondenceMaterial.cpp:70-85. -/
structure Strains where
  node : Nat → ℝ
  bond : Nat → ℝ

/-- What an evaluation of the material gives. -/
structure PlasticResult where
  result : Result
  written : Written
  fields : MatState

/-- An evaluation of the perfectly plastic material, with its fields.
Models src/materials/Peridigm_BondAssociatedCorrespondenceMaterial.cpp:571-1026 and
src/materials/Peridigm_ElasticPlasticBondAssociatedCorrespondenceMaterial.cpp:119-238. -/
def perfectEvaluation (B : Body) (D : Decompose) (order : Nat) (bulk shear yield dt : ℝ) (H : Harm) (u y v : Nat → V3)
    (g : Ghosts) (s : State) (o : Shown) (e : Strains) (n : Nat) (l : List Nat) : Outcome PlasticResult := do
  let bonds ← visitedBonds n l
  let ks := bonds.map (·.b)
  let q ← evaluationWritten B D order (perfectUpdate bulk shear yield ks) (perfectUpdate bulk shear yield (List.range n))
    dt H u y v g s o n l
  let nodes ← perfectAll bulk shear yield dt q.2.rate (fieldsOf o.stress e.node) (fieldsOf o.stress e.node) (List.range n)
  let bf ← perfectAll bulk shear yield dt q.1.kin.rate (fieldsOf s.stress e.bond) (fieldsOf s.stress e.bond) ks
  .ok ⟨q.1, q.2, ⟨nodes, bf⟩⟩

/-- The plastic strains after `initialize`.
Models src/materials/Peridigm_ElasticPlasticBondAssociatedCorrespondenceMaterial.cpp:92-117. -/
def strainsStart : Strains := ⟨fun _ => 0, fun _ => 0⟩

/-- The plastic strains after a step whose last evaluation gave `q`. -/
def PlasticResult.strains (q : PlasticResult) : Strains := ⟨q.fields.nodes.eqps, q.fields.bonds.eqps⟩

end Verif.Assoc
