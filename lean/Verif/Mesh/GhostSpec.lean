import Verif.Mesh.GhostModel
import Verif.Mesh.ExodusSpec

/-! Specification vocabulary for C246. -/

noncomputable section

namespace Verif.Mesh

open Verif Verif.Mech Verif.Neigh

/-- The files describe parts of one mesh, in which the element `gid` has the nodes `conn gid` and the node `n` is at
`pos n`.  Elements have nodes; elements and nodes may be in several files. -/
structure PartsOf (ps : List Piece) (conn : Nat → List Nat) (pos : Nat → V3) : Prop where
  wellFormed : ∀ p ∈ ps, WellFormed p.file p.elems
  nodup : ∀ p ∈ ps, p.nodes.Nodup
  length : ∀ p ∈ ps, p.nodes.length = p.file.coords.length
  conn_length : ∀ p ∈ ps, ∀ (k gid : Nat) (b : ElemBlock) (e : Nat), p.elems[k]? = some gid →
    (elements p.file.blocks)[k]? = some (b, e) → (conn gid).length = b.nodesPerElem ∧ 0 < b.nodesPerElem
  conn_node : ∀ p ∈ ps, ∀ (k gid : Nat) (b : ElemBlock) (e : Nat), p.elems[k]? = some gid →
    (elements p.file.blocks)[k]? = some (b, e) → ∀ i c, HasNode b e i c → (conn gid)[i]? = p.nodes[c]?
  pos_eq : ∀ p ∈ ps, ∀ (c n : Nat), p.nodes[c]? = some n → p.file.coords[c]? = some (pos n)

/-- The choice of Epetra: for every id that some list has, the number of a list that has it. -/
def Picks (pick : Nat → Nat) (lists : List (List Nat)) : Prop :=
  ∀ gid, (∃ l ∈ lists, gid ∈ l) → ∃ l, lists[pick gid]? = some l ∧ gid ∈ l

end Verif.Mesh
