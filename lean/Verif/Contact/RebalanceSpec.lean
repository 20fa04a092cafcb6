import Verif.Contact.RebalanceModel
import Verif.Contact.Spec
import Verif.Neigh.RebalanceProps

/-! Specification vocabulary for C30. -/

namespace Verif.Contact

open Verif Verif.Redist Verif.Neigh

/-- The processor's bond data say that each owned point `g` is bonded to `nb g`: through the neighbor list and
the overlap ids, and in the bond map, which has an element for every owned point with bonds. -/
def HoldsBonds (nb : Nat → List Nat) (c : Part) : Prop :=
  Holds nb ⟨c.owned, c.overlap, c.list⟩ ∧
  c.bond = ⟨c.owned.filter (fun g => nb g ≠ []), (c.owned.filter (fun g => nb g ≠ [])).map fun g => (nb g).length⟩

/-- The processor's contact list says, through the overlap ids, that each owned point `g` has the contact
neighbors `cn g`; all entries are valid local ids. -/
def HoldsContact (cn : Nat → List Nat) (c : Part) : Prop :=
  c.contactOwned.map (fun l => c.overlap[l]?) = c.owned.map some ∧
  ∃ lists : List (List Nat), c.contact = listOf lists ∧
    List.Forall₂ (fun lids g => lids.map (fun l => c.overlap[l]?) = (cn g).map some) lists c.owned

/-- An import of the counts may take the data of `g` from any processor that owns it, and an import of the
neighbors from any processor that has an element for it. -/
structure ValidRound (nb : Nat → List Nat) (search : Nat → List Nat) (cur : List Part) (r : Round) : Prop where
  nodup : ∀ x ∈ r.tgt, x.1.Nodup
  searched : ∀ x ∈ r.tgt, x.2 = encode (x.1.map search)
  pick1 : ∀ (p : Nat) x, r.tgt[p]? = some x → ∀ g ∈ x.1, ∃ c, cur[r.pick1 p g]? = some c ∧ g ∈ c.owned
  pick2 : ∀ (p : Nat) x, r.tgt[p]? = some x → ∀ g ∈ x.1, nb g ≠ [] →
    ∃ c, cur[r.pick2 p g]? = some c ∧ g ∈ c.owned

/-- What the contact search shall leave: the points found that are not bonded. -/
def unbonded (nb search : Nat → List Nat) (g : Nat) : List Nat := (search g).filter fun k => k ∉ nb g

end Verif.Contact
