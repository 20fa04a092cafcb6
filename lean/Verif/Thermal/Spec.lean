import Verif.Thermal.Model
import Verif.BC.Spec
import Verif.Diffusion.Spec

/-!
# Implicit diffusion: vocabulary of the properties
-/

namespace Verif.Thermal

open Verif Verif.BC Verif.Explicit Verif.QuasiStatic Verif.Dof Verif.Neigh

variable {σ ω : Type}

/-- The layout with temperatures only: "Solve For Displacement" false, "Solve For Temperature"
true. -/
def tempOnly : Manager := setup fresh { displacement := some false, temperature := some true }

/-- The vectors written for a load step. -/
def Record.vecs (r : Record ω) : Vecs := r.attempt.iter.vecs

/-- The temperature of node `g` is taken out of the system. -/
def Held (E : Env) (g : Nat) : Prop := Constrained E.dofs E.C.sets E.cs.boundary g .temperature 0

open Classical in
/-- The norm of the heat that has to be supplied at the nodes that are held. -/
noncomputable def supply (E : Env) (flux : Nat → ℝ) : ℝ :=
  Real.sqrt (∑ l ∈ Finset.range E.C.owned.length,
    if ∃ g, lid E.C.owned g = some l ∧ Held E g then (flux l * E.volume l) ^ 2 else 0)

/-- The evaluation of the model is that of a diffusion material on the mesh with neighborhoods
`nbs`. -/
def Conducts (S : Solver σ ω) (M : Diffusion.Medium) (nbs : List (List Nat)) : Prop :=
  ∀ N wk dt w wk' dens, S.evaluate N wk dt w = .ok (wk', dens) →
    Diffusion.fluxDivergence M (w .temperature) nbs.length (encode nbs) = .ok (dens .temperature)

/-- The linear solver always converges, and to the exact solution of the Newton system: no increment
at held nodes, and elsewhere minus the change of the flux divergence times the volume equals the
residual. -/
structure Exact (E : Env) (S : Solver σ ω) (M : Diffusion.Medium) (nbs : List (List Nat)) : Prop where
  converges : ∀ N wk dt w r p, S.direction N wk dt w r = .ok p → p.2.isSome
  held : ∀ N wk dt w r wk' lhs, S.direction N wk dt w r = .ok (wk', some lhs) →
    ∀ p < nbs.length, Held E p → lhs p = 0
  solves : ∀ N wk dt w r wk' lhs, S.direction N wk dt w r = .ok (wk', some lhs) →
    ∀ J, Diffusion.fluxDivergence M lhs nbs.length (encode nbs) = .ok J →
      ∀ p < nbs.length, ¬ Held E p → -(J p * E.volume p) = r p

end Verif.Thermal
