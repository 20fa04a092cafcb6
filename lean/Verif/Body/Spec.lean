import Verif.Body.Model
import Verif.Mech.Spec
import Verif.Assembly.Spec
import Mathlib.Algebra.BigOperators.Group.List.Basic

/-!
# The internal force of a body: vocabulary of the properties
-/

noncomputable section

namespace Verif.Body

open Verif Verif.Mech Verif.Neigh Verif.Assembly

/-- `F` is what one of the four modelled materials computes, for whatever constants and history. -/
inductive KernelForce (C : Config) (nbs : List (List Nat)) : (Nat → V3) → Prop
  | elastic (K mu : ℝ) (th theta : Nat → ℝ) (F : Nat → V3)
      (h : elasticMaterial C K mu nbs.length (encode nbs) th = .ok (theta, F)) : KernelForce C nbs F
  | bondBased (K : ℝ) (planar : Option ℝ) (F : Nat → V3)
      (h : bondBasedMaterial C K planar nbs.length (encode nbs) = .ok F) : KernelForce C nbs F
  | plastic (P : PlasticConst) (th edpN lambdaN theta : Nat → ℝ) (s s' : PlasticState)
      (h : plasticMaterial C P nbs.length (encode nbs) th edpN lambdaN s = .ok (theta, s')) :
      KernelForce C nbs s'.F
  | visco (P : ViscoConst) (dt : ℝ) (yN : Nat → V3) (thetaN edbN th edb theta edb' : Nat → ℝ)
      (F : Nat → V3)
      (h : viscoMaterial C P dt yN thetaN edbN nbs.length (encode nbs) th edb =
        .ok (theta, edb', F)) : KernelForce C nbs F

/-- The piece works with the volumes `V` and positions `Y` of its points, its neighborhoods stay
within its points, and its force is that of a material. -/
structure Piece.Valid (V : Nat → ℝ) (Y : Nat → V3) (p : Piece) : Prop where
  within : Within p.nbs p.gids.length
  volume : ∀ k g, p.gids[k]? = some g → p.config.v k = V g
  position : ∀ k g, p.gids[k]? = some g → p.config.y k = Y g
  kernel : KernelForce p.config p.nbs p.force

/-- A decomposition: no point is owned twice, importers find owners, and every point of every block
is owned by some processor. -/
structure Decomposition (global : Assembly.Dist V3) (blocks : List BodyBlock) : Prop where
  once : (global.flatMap fun part => part.map Prod.fst).Nodup
  picks : ∀ b ∈ blocks, ValidPick global b.field
  owned : ∀ b ∈ blocks, ∀ p ∈ b.pieces, ∀ g ∈ p.gids, ∃ q, Owns global q g

/-- Resultant of a global force density vector. -/
def resultant (V : Nat → ℝ) (f : Assembly.Dist V3) : V3 :=
  (f.map fun part => (part.map fun e => V e.1 • e.2).sum).sum

/-- Resultant moment about the origin. -/
def resultantMoment (V : Nat → ℝ) (Y : Nat → V3) (f : Assembly.Dist V3) : V3 :=
  (f.map fun part => (part.map fun e => V e.1 • crossProduct (Y e.1) e.2).sum).sum

end Verif.Body
