import Verif.Damage.InterfaceModel

/-! Specification vocabulary for C131. -/

namespace Verif.Damage

/-- Point `g` belongs to a block with critical stretch `c`. -/
def CriticalOf (blocks : List BlockSetup) (g : Nat) (c : ℝ) : Prop :=
  ∃ b ∈ blocks, b.crit = some c ∧ ∃ p ∈ b.parts, g ∈ p.1

/-- Every point is owned by one block on one processor; the points of a block on a processor are listed once and
include the owned ones. -/
def Partitioned (blocks : List BlockSetup) : Prop :=
  (blocks.flatMap fun b => b.parts.flatMap fun p => p.1).Nodup ∧
    ∀ b ∈ blocks, ∀ p ∈ b.parts, p.2.Nodup ∧ ∀ g ∈ p.1, g ∈ p.2

end Verif.Damage
