import Verif.Newton.Model
import Mathlib.Algebra.BigOperators.Group.Finset.Basic
import Mathlib.Order.Bounds.Basic

/-!
# Newton's iteration with damped tangents (vocabulary of the properties)
-/

namespace Verif.Newton

open Verif

/-- The rows that exist. -/
def ids (A : Mat) : Finset Nat := (A.flatten.map Row.gid).toFinset

/-- The coefficient in row `i` and column `j`; zero if there is no such entry. -/
noncomputable def coeff (A : Mat) (i j : Nat) : ℝ :=
  match A.flatten.find? fun r => r.gid == i with
  | some r => (r.entry j).getD 0
  | none => 0

/-- Every row is owned by one processor and has a diagonal entry. -/
structure Sound (A : Mat) : Prop where
  once : (A.flatten.map Row.gid).Nodup
  whole : ∀ r ∈ A.flatten, (r.entry r.gid).isSome

/-- `m` is the largest absolute value on the diagonal. -/
def IsPeak (A : Mat) (m : ℝ) : Prop := IsGreatest {a | ∃ i ∈ ids A, a = |coeff A i i|} m

/-- The matrix times a vector. -/
noncomputable def times (A : Mat) (x : Nat → ℝ) (i : Nat) : ℝ := ∑ j ∈ ids A, coeff A i j * x j

/-- The quadratic form of the matrix. -/
noncomputable def form (A : Mat) (x : Nat → ℝ) : ℝ := ∑ i ∈ ids A, x i * times A x i

/-- `x` solves the linear system. -/
def Solves (A : Mat) (x b : Nat → ℝ) : Prop := ∀ i ∈ ids A, times A x i = b i

/-- The matrix is the undamped tangent of the given state. -/
def Plain {S V κ : Type} (Q : Problem S V κ) (s : S) (A : Mat) : Prop := Q.tangent s = .ok A

/-- The matrix is the tangent of the given state, damped once. -/
def DampedOnce {S V κ : Type} (P : Params) (Q : Problem S V κ) (s : S) (A : Mat) : Prop :=
  ∃ B, Q.tangent s = .ok B ∧ A = damp P.scale P.shift B

/-- The answer of the linear solver depends on the linear system only. -/
def Memoryless {S V κ : Type} (Q : Problem S V κ) : Prop :=
  ∀ k k' A b r r', Q.solve k A b = .ok r → Q.solve k' A b = .ok r' → r.2 = r'.2

end Verif.Newton
