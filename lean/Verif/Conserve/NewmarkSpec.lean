import Verif.Conserve.Spec
import Verif.Implicit.Model

/-! Statements of C258, about the energy in implicit dynamics. -/

noncomputable section

namespace Verif.Conserve

open Verif Verif.Neigh Verif.Mech

/-- The internal forces of the linear LPS material for the displacements `u`. -/
def LpsForce (C : Config) (K mu : ℝ) (S : Lps.Stored) (nbs : List (List Nat)) (ghost : (Nat → ℝ) → Nat → ℝ) (u : Nat → ℝ) (F : Nat → V3) :
    Prop :=
  ∃ theta, Lps.evaluate (Lps.displaced C (at3 u)) .cells K mu S nbs.length (encode nbs) ghost = .ok (theta, F)

/-- Kinetic energy, the sum of half the mass times the squared velocity. -/
def kinetic (rho V : Nat → ℝ) (N : Nat) (v : Nat → ℝ) : ℝ :=
  1 / 2 * ∑ l ∈ Finset.range N, V l * (rho l * (at3 v l ⬝ᵥ at3 v l))

/-- Stored energy: half the work of the internal forces on the way back. -/
def stored (V : Nat → ℝ) (N : Nat) (F : Nat → V3) (u : Nat → ℝ) : ℝ :=
  -(1 / 2) * ∑ l ∈ Finset.range N, V l * (F l ⬝ᵥ at3 u l)

/-- The force that is missing for the balance of momentum. -/
def missing (rho : Nat → ℝ) (F : Nat → V3) (a : Nat → ℝ) (l : Nat) : V3 := rho l • at3 a l - F l

/-- The implicit solver evaluates the internal force with the linear LPS material. -/
def Solves {σ ω : Type} (C : Config) (K mu : ℝ) (S : Lps.Stored) (nbs : List (List Nat)) (ghost : (Nat → ℝ) → Nat → ℝ)
    (T : Implicit.Solver σ ω) : Prop :=
  ∀ N wk w a wk' f, T.force N wk w a = .ok (wk', f) → ∃ F, LpsForce C K mu S nbs ghost (w .u) F ∧ ∀ l < nbs.length, at3 f l = F l

/-- How far the points go in a step, weighted with their volumes. -/
def travelled (V : Nat → ℝ) (N : Nat) (u u' : Nat → ℝ) : ℝ :=
  ∑ l ∈ Finset.range N, V l * ∑ k : Fin 3, |at3 u' l k - at3 u l k|

end Verif.Conserve
