import Verif.Tangent.Model
import Verif.Mech.Spec

/-! Specification vocabulary for the tangent matrices. -/

noncomputable section

namespace Verif.Tangent

open Verif Verif.Neigh Verif.Mech

/-- A part of the mesh, as one processor holds it: global ids by local id, owned points first, and the
neighbors of the owned points by local id. -/
structure Part where
  overlap : List Nat
  nbs : List (List Nat)

/-- The data structures of a part. -/
def Part.proc (P : Part) : Proc := ⟨P.overlap, P.nbs.length, encode P.nbs⟩

/-- All local ids are in the overlap map. -/
def Part.Valid (P : Part) : Prop := Within P.nbs P.overlap.length

/-- Point `p` is owned by some processor. -/
def Owned (parts : List Part) (p : Nat) : Prop :=
  ∃ P ∈ parts, ∃ q < P.nbs.length, P.overlap[q]? = some p

/-- Point `j` is a neighbor of point `p`. -/
def Nbr (parts : List Part) (p j : Nat) : Prop :=
  ∃ P ∈ parts, ∃ (q : Nat) (ns : List Nat), P.nbs[q]? = some ns ∧ P.overlap[q]? = some p ∧ ∃ i ∈ ns, P.overlap[i]? = some j

/-- No point is owned twice. -/
def UniqueOwner (parts : List Part) : Prop :=
  ∀ P ∈ parts, ∀ P' ∈ parts, ∀ q q' p : Nat, q < P.nbs.length → q' < P'.nbs.length →
    P.overlap[q]? = some p → P'.overlap[q']? = some p → P = P' ∧ q = q'

/-- Every point has a neighbor. -/
def Joined (parts : List Part) : Prop := ∀ P ∈ parts, ∀ ns ∈ P.nbs, ns ≠ []

/-- The neighborhood of the point with local id `q` and neighbors `ns`, by global id. -/
def Part.hood (P : Part) (q : Nat) (ns : List Nat) : List Nat := (q :: ns).filterMap fun i => P.overlap[i]?

/-- The neighborhoods of a part. -/
def Part.hoods (P : Part) : List (List Nat) := P.nbs.zipIdx.map fun x => P.hood x.2 x.1

/-- The neighborhoods of all parts. -/
def allHoods (parts : List Part) : List (List Nat) := parts.flatMap Part.hoods

/-- A local array spread over the global one: zero at points outside the neighborhood. -/
def spread (s : Nat) (gids : List Nat) (f : Nat → ℝ) (r : Nat) : ℝ :=
  if r / s ∈ gids then f (s * gids.idxOf (r / s) + r % s) else 0

/-- The force density from all neighborhoods: each is evaluated on its own and the results are added. -/
def internalForce (K : Kernel) (Y V : Nat → ℝ) : List (List Nat) → Outcome (Nat → ℝ)
  | [] => .ok fun _ => 0
  | h :: hs => do
    let f ← K h (gather 3 h Y) (gather 3 h V)
    let rest ← internalForce K Y V hs
    .ok fun r => spread 3 h f r + rest r

/-- The same for the flux divergence. -/
def fluxDivergence (Q : FluxKernel) (T : Nat → ℝ) : List (List Nat) → Outcome (Nat → ℝ)
  | [] => .ok fun _ => 0
  | h :: hs => do
    let f ← Q h (gather 1 h T)
    let rest ← fluxDivergence Q T hs
    .ok fun r => spread 1 h f r + rest r

/-- An array with one entry changed by `d`. -/
def bump (Y : Nat → ℝ) (k : Nat) (d : ℝ) : Nat → ℝ := Function.update Y k (Y k + d)

end Verif.Tangent
