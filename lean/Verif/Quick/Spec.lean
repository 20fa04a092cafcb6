import Verif.Quick.Model
import Verif.Grid.Spec
import Verif.Balance.Spec

/-!
# What the parts of a discretization hold together (specification)
-/

namespace Verif.Quick

open Verif Verif.Mech Verif.Neigh

/-- The vectors of a processor belong to its points, and every point has position, volume and neighbors as given by
`X`, `V` and `N`, the horizon `h` and block 1.  Neighbors are found through the pointer array, as local ids in the
overlap map.  The bond map lists the points that have neighbors, with their numbers. -/
structure Carries (enc : ℝ → Balance.Dbl) (h : ℝ) (X : Nat → V3) (V : Nat → ℝ) (N : Nat → List Nat) (r : Part) :
    Prop where
  sizes : r.x.length = 3 * r.disc.owned.length ∧ r.volume.length = r.disc.owned.length ∧
    r.horizon.length = r.disc.owned.length ∧ r.blockId.length = r.disc.owned.length ∧
    r.disc.data.ownedIDs.length = r.disc.owned.length ∧ r.disc.data.ptr.length = r.disc.owned.length
  position : ∀ (k g : Nat), r.disc.owned[k]? = some g → ∀ i : Fin 3, r.x[3 * k + i]? = some (enc (X g i))
  scalars : ∀ (k g : Nat), r.disc.owned[k]? = some g →
    r.volume[k]? = some (enc (V g)) ∧ r.horizon[k]? = some h ∧ r.blockId[k]? = some 1
  itself : ∀ (k g : Nat), r.disc.owned[k]? = some g →
    ∃ l, r.disc.data.ownedIDs[k]? = some l ∧ r.disc.overlap[l]? = some g
  neighbors : ∀ (k g : Nat), r.disc.owned[k]? = some g →
    ∃ pos lids, r.disc.data.ptr[k]? = some pos ∧ neighborsAt r.disc.data.list pos = .ok lids ∧
      lids.map (fun l => r.disc.overlap[l]?) = (N g).map some
  bonds : r.bonds.gids = r.disc.owned.filter (fun g => N g ≠ []) ∧
    r.bonds.sizes = r.bonds.gids.map fun g => (N g).length
  overlap : r.disc.overlap.Nodup ∧
    ∀ g, g ∈ r.disc.overlap ↔ g ∈ r.disc.owned ∨ ∃ g' ∈ r.disc.owned, g ∈ N g'

/-- Every point `0 .. total - 1` is on one of the processors, with its data; block_1 lists all of them everywhere. -/
structure Whole (enc : ℝ → Balance.Dbl) (h : ℝ) (total : Nat) (X : Nat → V3) (V : Nat → ℝ) (N : Nat → List Nat)
    (procs : Nat) (out : List Part) : Prop where
  procs : out.length = procs
  owned : (out.flatMap fun r => r.disc.owned).Perm (List.range total)
  carries : ∀ r ∈ out, Carries enc h X V N r
  elements : ∀ r ∈ out, r.elements = List.range total

/-- Zoltan keeps its promises on the grids of the processors; `pts` are the points of the grids, and `origin` tells
where the points that a processor receives come from. -/
structure Migrates (enc : ℝ → Balance.Dbl) (ds : List Grid.Data) (procs : Nat) (P : Balance.Plan)
    (gs : Nat → Balance.GridData) (pts : Nat → List Balance.Pt) (origin : Nat → List (Nat × Nat)) : Prop where
  grids : ∀ p < procs, ∃ d, Grid.deliver ds p = some d ∧ gs p = gridData enc d
  holds : ∀ p < procs, Balance.Holds (gs p) (pts p)
  keeps : Balance.Keeps P procs gs pts origin

end Verif.Quick
