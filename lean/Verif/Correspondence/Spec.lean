import Verif.Correspondence.Model
import Verif.Mech.Spec
import Verif.Tensor.Lemmas

/-!
# Correspondence materials: notions used in the statements
-/

noncomputable section

namespace Verif.Correspondence

open Verif Verif.Neigh Verif.Mech Verif.Tensor Matrix

/-- Matrices in the sense of linear algebra. -/
abbrev Mat := Matrix (Fin 3) (Fin 3) ℝ

/-- The shape tensor of point `p` with neighbors `ns`. -/
def shapeOf (B : Body) (p : Nat) (ns : List Nat) : Mat :=
  (ns.map fun j => (B.omega (len (B.x j - B.x p)) (B.horizon p) * B.volume j) •
    vecMulVec (B.x j - B.x p) (B.x j - B.x p)).sum

/-- Seen from `p`, the neighbors `ns` have moved according to the matrix `A`. -/
def MovedBy (B : Body) (y : Nat → V3) (p : Nat) (ns : List Nat) (A : Mat) : Prop :=
  ∀ j ∈ ns, y j - y p = A *ᵥ (B.x j - B.x p)

/-- Seen from `p`, the neighbors `ns` move with the velocity gradient `G`. -/
def FlowingBy (y v : Nat → V3) (p : Nat) (ns : List Nat) (G : Mat) : Prop :=
  ∀ j ∈ ns, v j - v p = G *ᵥ (y j - y p)

/-- The cross product matrix of a vector. -/
def axial (o : V3) : Mat := !![0, -o 2, o 1; o 2, 0, -o 0; -o 1, o 0, 0]

/-- What a step hands to the next. -/
def Result.next (r : Result) : State := ⟨r.kinematics.stretch, r.kinematics.rotation, r.stress⟩

/-- `Run B M nbs s0 s hist`: from `s0` the material was evaluated for a sequence of steps, each with its
own length, positions, velocities and stale arrays, and each starting from the values of the one
before; `hist` lists the results, latest first. -/
inductive Run (B : Body) (M : Material) (nbs : List (List Nat)) (s0 : State) : State → List Result → Prop
  | start : Run B M nbs s0 s0 []
  | step {s hist r} (dt : ℝ) (y v : Nat → V3) (old : Stale) : Run B M nbs s0 s hist →
      computeForce B M dt y v s old nbs.length (encode nbs) = .ok r →
      Run B M nbs s0 r.next (r :: hist)

end Verif.Correspondence
