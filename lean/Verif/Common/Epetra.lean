import Verif.Common.Outcome
import Mathlib.Data.List.Basic

/-!
# One processor's view of Epetra maps and vectors

`Epetra_BlockMap` and `Epetra_Vector` are third-party (Trilinos) classes; they are not in /repo.
This file fixes the part of their documented behaviour that the modelled code relies on.
-/

namespace Verif

/-- One processor's part of an `Epetra_BlockMap`: the global ids in local order and the number of
entries of each element. -/
structure BlockMap where
  gids : List Nat
  sizes : List Nat
  deriving DecidableEq, Repr

namespace BlockMap

/-- A map in which every element has the same number of entries. -/
def const (gids : List Nat) (k : Nat) : BlockMap := ⟨gids, gids.map fun _ => k⟩

/-- Lists match and no global id occurs twice on the processor. -/
structure WF (m : BlockMap) : Prop where
  len : m.sizes.length = m.gids.length
  nodup : m.gids.Nodup

/-- `LID(gid)`: the local id, `none` for Epetra's `-1`. -/
def lid (m : BlockMap) (gid : Nat) : Option Nat :=
  if gid ∈ m.gids then some (m.gids.idxOf gid) else none

/-- `FirstPointInElement(lid)`: offset of the element's first entry. -/
def firstPoint (m : BlockMap) (lid : Nat) : Nat := (m.sizes.take lid).sum

/-- `NumMyPoints()`: total number of entries. -/
def numPoints (m : BlockMap) : Nat := m.sizes.sum

end BlockMap

/-- An `Epetra_Vector` on one processor: its map and its entries. -/
structure Vec (α : Type) where
  map : BlockMap
  vals : List α
  deriving DecidableEq, Repr

namespace Vec

/-- The entry list has the length prescribed by the map. -/
def WF {α : Type} (v : Vec α) : Prop := v.map.WF ∧ v.vals.length = v.map.numPoints

/-- A newly constructed vector is filled with zeros. -/
def zeros {α : Type} [Zero α] (m : BlockMap) : Vec α := ⟨m, List.replicate m.numPoints 0⟩

/-- Assignment `v[i] = x`; undefined outside the vector. -/
def setEntry {α : Type} (v : Vec α) (i : Nat) (x : α) : Outcome (Vec α) :=
  if i < v.vals.length then .ok ⟨v.map, v.vals.set i x⟩ else .ub

/-- Read `v[i]`; undefined outside the vector. -/
def getEntry {α : Type} (v : Vec α) (i : Nat) : Outcome α :=
  match v.vals[i]? with
  | some x => .ok x
  | none => .ub

end Vec
end Verif
