import Verif.Damage.Model
import Verif.Mech.Spec

/-! Specification vocabulary for C25 to C28. -/

noncomputable section

namespace Verif.Damage

open Verif Verif.Mech Verif.Neigh

/-- The stretch of the bond from point `i` to point `j`: the ratio of deformed and undeformed length minus
one, less the thermal strain at `i`. -/
def stretch (I : Input) (i j : Nat) : ℝ :=
  len (I.y j - I.y i) / len (I.x j - I.x i) - 1 -
    (match I.thermal with
     | none => 0
     | some (alpha, dT) => alpha * dT i)

/-- The bond from `i` to `j` was overstretched in the final evaluation of some step of the history. -/
def Overstretched (crit : ℝ) (hist : List (List Input)) (i j : Nat) : Prop :=
  ∃ st ∈ hist, ∃ I, st.getLast? = some I ∧ crit < stretch I i j

/-- The `t`-th neighbor of the owned point with position `p` in the lists and local id `i` is `j`. -/
def IsBond (ownedIDs : List Nat) (nbs : List (List Nat)) (p t i j : Nat) : Prop :=
  ownedIDs[p]? = some i ∧ ∃ ns, nbs[p]? = some ns ∧ ns[t]? = some j

/-- Every step of the history evaluates the damage model at least once. -/
def Evaluated {α : Type} (hist : List (List α)) : Prop := ∀ st ∈ hist, st ≠ []

/-- No bond has length zero in the undeformed configuration. -/
def Distinct (I : Input) (ownedIDs : List Nat) (nbs : List (List Nat)) : Prop :=
  ∀ p t i j, IsBond ownedIDs nbs p t i j → I.x j ≠ I.x i

/-- The fraction of the bonds of the point with position `p` whose damage is 1. -/
def brokenFraction (nbs : List (List Nat)) (d : Nat → ℝ) (p : Nat) (ns : List Nat) : ℝ :=
  open scoped Classical in
  if ns.length = 0 then 0
  else (((List.range ns.length).filter fun t => d (bondPos nbs p t) = 1).length : ℝ) / ns.length

/-- The damage the von Mises model assigns to a stress: linear between threshold and critical value of the
ratio to the critical stress. -/
def ramp (P : VMParams) (stress : ℝ) : ℝ :=
  open scoped Classical in
  if P.critical ≤ stress / P.stress then 1
  else if stress / P.stress ≤ P.threshold then 0
  else (stress / P.stress - P.threshold) / (P.critical - P.threshold)

end Verif.Damage
