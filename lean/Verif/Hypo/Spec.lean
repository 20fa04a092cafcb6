import Verif.Hypo.Model
import Verif.Assoc.Spec
import Verif.Tensor.Lemmas

/-!
# Hypoelastic correspondence material: terms used by the properties
-/

noncomputable section

namespace Verif.Hypo

open Verif Verif.Neigh Verif.Mech Verif.Tensor
open Verif.Assoc (Body Decompose)
open scoped Classical

/-- A block all of whose neighbors are owned, with mutual neighborhoods and an influence function that is not negative. -/
structure Whole (B : Block) (nbs : List (List Nat)) : Prop where
  within : Within nbs nbs.length
  both : Verif.Diffusion.Mutual nbs
  influence : ∀ a b, 0 ≤ B.influence a b

/-- The states in which an analysis calls the material; `A` is what is assumed of damage and flying points. -/
inductive Run {α β : Type} (B : Block) (D : Decompose) (order : Nat) (M : Material α β) (a : α) (o : β) (nbs : List (List Nat))
    (A : Harm → Prop) : State α β → Prop where
  | start : Run B D order M a o nbs A (initialState a o)
  | step {s : State α β} {dt : ℝ} {H : Harm} {y v : Nat → V3} {g : Ghosts} {r : Result α β} :
      Run B D order M a o nbs A s → A H →
      evaluation B D order M dt H y v g s nbs.length (encode nbs) = .ok r → Run B D order M a o nbs A (r.next s)
  | again {s : State α β} {dt : ℝ} {H : Harm} {y v : Nat → V3} {g : Ghosts} {r : Result α β} :
      Run B D order M a o nbs A s → A H →
      evaluation B D order M dt H y v g s nbs.length (encode nbs) = .ok r → Run B D order M a o nbs A (r.again s)

/-- No point flies, both copies of a bond have the same damage, no bond is more than broken. -/
structure Grounded (nbs : List (List Nat)) (H : Harm) : Prop where
  flag : ∀ p, H.flag p < 0
  paired : Verif.Assoc.Paired nbs H.bondDamage
  le_one : ∀ k, H.bondDamage k ≤ 1

/-- A law that keeps symmetric stresses symmetric. -/
def SymmetricLaw {α β : Type} (law : Law α β) : Prop :=
  ∀ dt D sigma a o r, law dt D sigma a o = .ok r → D.toMatrix.transpose = D.toMatrix →
    sigma.toMatrix.transpose = sigma.toMatrix → r.1.toMatrix.transpose = r.1.toMatrix

end Verif.Hypo
