import Verif.Assembly.Model

/-! Specification vocabulary for C12 and C13. -/

namespace Verif.Assembly

variable {V : Type}

/-- All values stored for id `g` by any block on any processor, as owned point or as ghost. -/
def contributions (blocks : List (BlockField V)) (g : Nat) : List V :=
  blocks.flatMap fun b => (b.data.getD []).flatMap fun part =>
    (part.filter fun e => e.1 = g).map Prod.snd

/-- Id `g` is owned by processor `p`. -/
def Owns (global : Dist V) (p g : Nat) : Prop :=
  ∃ part, global[p]? = some part ∧ g ∈ part.map Prod.fst

/-- The importer of a block finds the owner of every id that has one.  As it holds for every owner, the
global owned map gives each id at most one owner, which is what `Epetra_BlockMap` calls one-to-one. -/
def ValidPick (global : Dist V) (b : BlockField V) : Prop :=
  ∀ (q g p : Nat), Owns global p g → b.pick q g = p

end Verif.Assembly
