import Verif.Mech.Spec
import Mathlib.Analysis.Calculus.Deriv.Basic

/-! Statements of C252 to C254, about the viscoelastic material. -/

noncomputable section

namespace Verif.Visco

open Verif Verif.Neigh Verif.Mech

/-- `j` is the neighbor at place `t` of point `p`. -/
def IsNeighbor (nbs : List (List Nat)) (p t j : Nat) : Prop := ∃ ns, nbs[p]? = some ns ∧ ns[t]? = some j

/-- `E` follows the rate equation of the back extension for a deviatoric extension that goes linearly from `a` to `c`
within the time `dt`: its rate is what it lags behind, over the relaxation time. -/
def Lags (tau dt a c : ℝ) (E : ℝ → ℝ) : Prop :=
  ∀ u ∈ Set.Icc 0 dt, HasDerivAt E ((a + u / dt * (c - a) - E u) / tau) u

/-- `Held C P nbs s F T s' F'`: from the state `s` with forces `F` the body was held in configuration `C` for the time `T`,
in steps of any positive lengths; `s'` and `F'` are the state and the forces at the end. -/
inductive Held (C : Config) (P : ViscoConst) (nbs : List (List Nat)) (s : ViscoState) (F : Nat → V3) :
    ℝ → ViscoState → (Nat → V3) → Prop
  | start : Held C P nbs s F 0 s F
  | step {T s' F'} (dt : ℝ) (th stale : Nat → ℝ) {theta edb F''} : Held C P nbs s F T s' F' → 0 < dt →
      viscoMaterial C P dt s'.y s'.theta s'.edb nbs.length (encode nbs) th stale = .ok (theta, edb, F'') →
      Held C P nbs s F (T + dt) ⟨C.y, theta, edb⟩ F''

/-- The influence function is `w` on every bond. -/
def Uniform (C : Config) (nbs : List (List Nat)) (w : ℝ) : Prop :=
  ∀ p t j, IsNeighbor nbs p t j → C.omega (len (C.x j - C.x p)) C.horizon = w

end Verif.Visco
