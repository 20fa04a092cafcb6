import Verif.Assoc.PolyLemmas
import Verif.Diffusion.Spec
import Mathlib.Data.Matrix.Basic
import Mathlib.LinearAlgebra.Matrix.ConjTranspose

/-!
# Bond-associated correspondence material: terms used by the properties
-/

noncomputable section

namespace Verif.Assoc

open Verif Verif.Neigh Verif.Mech Verif.Tensor MvPolynomial
open scoped Classical

/-- `s` is a singular value decomposition of `M`. -/
structure Svd.IsFor {q : Nat} (s : Svd q) (M : Matrix (Fin q) (Fin q) ℝ) : Prop where
  product : M = s.u * Matrix.diagonal s.w * s.v.transpose
  left : s.u.transpose * s.u = 1
  right : s.v.transpose * s.v = 1
  nonneg : ∀ k, 0 ≤ s.w k

/-- The routine decomposes every symmetric matrix. -/
def Decompose.Correct (D : Decompose) : Prop := ∀ q M, M.transpose = M → (D q M).IsFor M

/-- The neighbors of `p` are placed well enough for fields of degree `order`: the weighted sum of squares
of a polynomial without constant term over the intact bonds, in coordinates scaled by the horizon, bounds
the sum of squares of its coefficients, with a constant above the threshold of the code. -/
def WellPlaced (B : Body) (order : Nat) (bondDamage : Nat → ℝ) (nbs : List (List Nat)) (p : Nat) : Prop :=
  ∃ c, B.horizon p ^ 3 / 10 ^ 6 < c ∧
    ∀ P : MvPolynomial (Fin 3) ℝ, P.totalDegree ≤ order → coeff 0 P = 0 →
      c * ∑ m ∈ P.support, coeff m P ^ 2 ≤
        ((nbs.getD p []).zipIdx.map fun (j, t) =>
          B.influence (len (B.x j - B.x p)) (B.horizon p) * (1 - bondDamage (bondPos nbs p t)) * B.volume j *
            eval (fun d => (B.x j d - B.x p d) / B.horizon p) P ^ 2).sum

/-- The values `z` at `p` and its neighbors are those of the polynomial field `Z`. -/
def Follows (B : Body) (nbs : List (List Nat)) (p : Nat) (Z : Fin 3 → MvPolynomial (Fin 3) ℝ) (z : Nat → V3) :
    Prop :=
  ∀ q, q = p ∨ HasBond nbs p q → ∀ c, z q c = eval (B.x q) (Z c)

/-- The gradient at `a` of the field `Z`. -/
def gradientOf (Z : Fin 3 → MvPolynomial (Fin 3) ℝ) (a : V3) : Matrix (Fin 3) (Fin 3) ℝ :=
  fun c d => eval a (pderiv d (Z c))

/-- The state if the evaluation is followed by another one in the same step: the arrays that exist once
have changed, those of step N have not. -/
def Result.trial (r : Result) (s : State) : State :=
  { s with weights := r.pre.weights, jacobian := r.kin.jacobian, inv := r.kin.inv }

/-- The states in which an analysis calls the material, with the bond damage of the evaluation before.
`A` relates the bond damage of one evaluation to the damage fields of the next one. -/
inductive Run (B : Body) (D : Decompose) (order : Nat) (U : Update) (ghost : Nat → ℝ) (nbs : List (List Nat))
    (A : (Nat → ℝ) → Harm → Prop) : (Nat → ℝ) → State → Prop where
  | start {s : State} : initialState B D order ghost nbs.length (encode nbs) = .ok s → Run B D order U ghost nbs A (fun _ => 0) s
  | step {d : Nat → ℝ} {s : State} {dt : ℝ} {H : Harm} {u y v : Nat → V3} {g : Ghosts} {r : Result} :
      Run B D order U ghost nbs A d s → A d H →
      evaluation B D order U dt H u y v g s nbs.length (encode nbs) = .ok r →
      Run B D order U ghost nbs A H.bondDamage (r.next s)
  | again {d : Nat → ℝ} {s : State} {dt : ℝ} {H : Harm} {u y v : Nat → V3} {g : Ghosts} {r : Result} :
      Run B D order U ghost nbs A d s → A d H →
      evaluation B D order U dt H u y v g s nbs.length (encode nbs) = .ok r →
      Run B D order U ghost nbs A H.bondDamage (r.trial s)

/-- A point at which the damage of a bond has changed since the evaluation before is one whose damage has
grown in the step. -/
def Reported (nbs : List (List Nat)) (d : Nat → ℝ) (H : Harm) : Prop :=
  ∀ p ns t j, nbs[p]? = some ns → ns[t]? = some j → H.bondDamage (bondPos nbs p t) ≠ d (bondPos nbs p t) →
    1 / 10 ^ 15 < H.damageNP1 p - H.damageN p

/-- States of an analysis with the elastic material in which the body, affinely deformed, moves rigidly from the beginning: the
velocities are those of rotations and translations, which may differ from step to step. -/
inductive RigidRun (B : Body) (D : Decompose) (order : Nat) (bulk shear : ℝ) (ghost : Nat → ℝ) (nbs : List (List Nat)) :
    (Nat → ℝ) → State → Prop where
  | start {s : State} : initialState B D order ghost nbs.length (encode nbs) = .ok s →
      RigidRun B D order bulk shear ghost nbs (fun _ => 0) s
  | step {d : Nat → ℝ} {s : State} {dt : ℝ} {H : Harm} {u y v : Nat → V3} {g : Ghosts} {r : Result}
      {F W : Matrix (Fin 3) (Fin 3) ℝ} {f c : V3} :
      RigidRun B D order bulk shear ghost nbs d s → Reported nbs d H →
      (∀ p < nbs.length, WellPlaced B order H.bondDamage nbs p) →
      (∀ k, u k = y k - B.x k) → (∀ k, y k = F.mulVec (B.x k) + f) → W.transpose = -W → (∀ k, v k = W.mulVec (y k) + c) →
      evaluation B D order (elasticUpdate bulk shear) dt H u y v g s nbs.length (encode nbs) = .ok r →
      RigidRun B D order bulk shear ghost nbs H.bondDamage (r.next s)

/-- Both copies of a bond have the same value. -/
def Paired {α : Type} (nbs : List (List Nat)) (f : Nat → α) : Prop :=
  ∀ p q ns ms t t', nbs[p]? = some ns → ns[t]? = some q → nbs[q]? = some ms → ms[t']? = some p →
    f (bondPos nbs p t) = f (bondPos nbs q t')

/-- What is assumed of a damage model: changes are reported, both copies of a bond break together, no bond is more than
broken. -/
structure Tame (nbs : List (List Nat)) (d : Nat → ℝ) (H : Harm) : Prop where
  reported : Reported nbs d H
  paired : Paired nbs H.bondDamage
  le_one : ∀ k, H.bondDamage k ≤ 1

/-- A stress update that looks at each bond alone, and at every bond in the same way. -/
def Local (nbs : List (List Nat)) (U : Update) : Prop :=
  ∀ dt D s s', U dt D s = .ok s' → ∀ k < (nbs.map List.length).sum, ∀ k' < (nbs.map List.length).sum,
    D k = D k' → s k = s k' → s' k = s' k'

/-- A body all of whose points are owned, with mutual neighborhoods, horizons that agree across bonds and an influence
function that is not negative. -/
structure Whole (B : Body) (nbs : List (List Nat)) : Prop where
  within : Within nbs nbs.length
  both : Verif.Diffusion.Mutual nbs
  horizon : ∀ p q, HasBond nbs p q → B.horizon p = B.horizon q
  influence : ∀ a b, 0 ≤ B.influence a b

/-- The share of the bond from `p` to its `t`-th neighbor `j` in the body: volumes, influence and mean of the
reciprocal weighted volumes. -/
def bondMeasure (B : Body) (w0 omega : Nat → ℝ) (b : Bond) : ℝ :=
  B.volume b.i * B.volume b.j * omega b.b * ((1 / w0 b.i + 1 / w0 b.j) / 2)

end Verif.Assoc
