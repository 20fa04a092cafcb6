import Verif.Conserve.UniqueSpec

/-! Statements of C261, about the potential energy of quasi-static solutions. -/

noncomputable section

namespace Verif.Conserve

open Verif Verif.Neigh Verif.Mech

/-- The displacements `w` are those prescribed at the time `t`, as far as displacements are prescribed; where several definitions apply the last one
counts. -/
def Admissible (E : QuasiStatic.Env) (ds : List BC.Definition) (t : ℝ) (w : Nat → ℝ) : Prop :=
  ∀ g l k pre d post, BC.lid E.C.owned g = some l → ds = pre ++ d :: post → d.type = .prescribedDisplacement → BC.Covers E.C.sets d g k →
    (∀ d' ∈ post, d'.type = .prescribedDisplacement → ¬ BC.Covers E.C.sets d' g k) →
      d.value (E.C.x (l * 3)) (E.C.x (l * 3 + 1)) (E.C.x (l * 3 + 2)) t = some (w (l * 3 + k))

/-- Potential energy: the stored energy less the work of the external forces. -/
def potential (V : Nat → ℝ) (N : Nat) (F : Nat → V3) (ext u : Nat → ℝ) : ℝ :=
  stored V N F u - ∑ l ∈ Finset.range N, V l * (at3 ext l ⬝ᵥ at3 u l)

end Verif.Conserve
