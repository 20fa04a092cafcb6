import Verif.Redist.Model

/-! Specification vocabulary for C07 and C08. -/

namespace Verif.Redist

open Verif

variable {α : Type}

/-- Entry `i` of the element with global id `gid` of a vector with entries `v` on map `m`; `none` if
the processor does not hold the id or the element has no such entry. -/
def entry (m : BlockMap) (v : List α) (gid i : Nat) : Option α :=
  if gid ∈ m.gids ∧ i < m.sizes.getD (m.gids.idxOf gid) 0 then
    v[(m.sizes.take (m.gids.idxOf gid)).sum + i]?
  else none

/-- Number of entries of the element with global id `gid`. -/
def sizeOf? (m : BlockMap) (gid : Nat) : Option Nat :=
  if gid ∈ m.gids then m.sizes[m.gids.idxOf gid]? else none

/-- A multivector whose map is consistent and whose columns have the length the map prescribes. -/
def MultiVec.WF (mv : MultiVec α) : Prop :=
  mv.map.WF ∧ ∀ c ∈ mv.cols, c.length = mv.map.numPoints

/-- All multivectors of a state are consistent. -/
def VState.WF (st : VState α) : Prop :=
  (∀ mv, some mv ∈ st.pointData → mv.WF) ∧ ∀ mv, st.bondData = some mv → mv.WF

/-- All multivectors of a manager are consistent. -/
def VManager.WF (m : VManager α) : Prop :=
  (∀ st, m.stateNONE = some st → st.WF) ∧ (∀ st, m.stateN = some st → st.WF) ∧
    ∀ st, m.stateNP1 = some st → st.WF

/-- Two managers were allocated for the same fields. -/
def SameFields (s t : VManager α) : Prop :=
  s.statelessPoint = t.statelessPoint ∧ s.statelessBond = t.statelessBond ∧
    s.statefulPoint = t.statefulPoint ∧ s.statefulBond = t.statefulBond

end Verif.Redist

namespace Verif.Redist

open Verif

variable {α : Type}

/-- Entry `i` of the element `gid` in column `c` on processor `p` of a distributed multivector. -/
def val (d : DistMV α) (p c gid i : Nat) : Option α :=
  (d[p]?).bind fun mv => (mv.cols[c]?).bind fun v => entry mv.map v gid i

/-- What processor `p` reads as entry `i` of field `f` for the point (or, for bond fields, for the
`i`-th bond of the point) `gid`. -/
def DManager.value (d : DManager α) (p f : Nat) (s : Field.Step) (gid i : Nat) : Option α :=
  ((d.onRank p).data f s).bind fun mv => entry mv.1 mv.2 gid i

/-- The five maps on all processors describe points `own[p]` owned and `ovl[p]` held by processor
`p`, with one and three entries per point. -/
structure PointMaps (m : DMaps) (own ovl : List (List Nat)) : Prop where
  ownedScalar : m.ownedScalar = own.map fun g => BlockMap.const g 1
  ownedVector : m.ownedVector = own.map fun g => BlockMap.const g 3
  overlapScalar : m.overlapScalar = ovl.map fun g => BlockMap.const g 1
  overlapVector : m.overlapVector = ovl.map fun g => BlockMap.const g 3

/-- Every processor holds the points it owns, every point held anywhere is owned by exactly one
processor, and no processor lists a point twice. -/
structure Ownership (own ovl : List (List Nat)) : Prop where
  ranks : own.length = ovl.length
  nodupOwn : ∀ g ∈ own, g.Nodup
  nodupOvl : ∀ g ∈ ovl, g.Nodup
  held : ∀ (p : Nat) (g o : List Nat), own[p]? = some g → ovl[p]? = some o → ∀ x ∈ g, x ∈ o
  owned : ∀ o ∈ ovl, ∀ x ∈ o, ∃ g ∈ own, x ∈ g
  unique : ∀ (p q : Nat) (g g' : List Nat) (x : Nat), own[p]? = some g → own[q]? = some g' →
    x ∈ g → x ∈ g' → p = q

/-- A distributed multivector with `es` entries per point on the points `ovl`. -/
def Shape (es : Nat) (ovl : List (List Nat)) (n : Nat) (d : DistMV α) : Prop :=
  d.length = ovl.length ∧ ∀ (p : Nat) (g : List Nat), ovl[p]? = some g → ∃ mv, d[p]? = some mv ∧
    mv.map = BlockMap.const g es ∧ mv.cols.length = n ∧ ∀ c ∈ mv.cols, c.length = g.length * es

/-- A distributed bond multivector on the given maps. -/
def BondShape (maps : List BlockMap) (n : Nat) (d : DistMV α) : Prop :=
  d.length = maps.length ∧ ∀ (p : Nat) (m : BlockMap), maps[p]? = some m → ∃ mv, d[p]? = some mv ∧
    mv.map = m ∧ m.WF ∧ mv.cols.length = n ∧ ∀ c ∈ mv.cols, c.length = m.numPoints

/-- The columns a state holds are those of its fields. -/
structure StateShape (pts : List (Field.Length × List Nat)) (bonds : List Nat)
    (ovl : List (List Nat)) (bondMaps : List BlockMap) (st : DState α) : Prop where
  point : ∀ len ids d, (len, ids) ∈ pts → Field.variableDimension len = .ok d →
    ∃ mv, st.pointData[d - 1]? = some (some mv) ∧ Shape d ovl ids.length mv
  slots : ∀ (k : Nat) (mv : DistMV α), st.pointData[k]? = some (some mv) → ∃ n, Shape (k + 1) ovl n mv
  bond : bonds ≠ [] → ∃ mv, st.bondData = some mv ∧ BondShape bondMaps bonds.length mv

/-- A manager allocated on the given distribution. -/
structure ManagerShape (d : DManager α) (own ovl : List (List Nat)) : Prop where
  maps : PointMaps d.maps own ovl
  once : (d.statelessPoint.flatMap Prod.snd ++ d.statelessBond).Nodup
  once' : (d.statefulPoint.flatMap Prod.snd ++ d.statefulBond).Nodup
  none : ∀ st, d.stateNONE = some st →
    StateShape d.statelessPoint d.statelessBond ovl d.maps.ownedBond st
  n : ∀ st, d.stateN = some st →
    StateShape d.statefulPoint d.statefulBond ovl d.maps.ownedBond st
  np1 : ∀ st, d.stateNP1 = some st →
    StateShape d.statefulPoint d.statefulBond ovl d.maps.ownedBond st

/-- What is known about the choices made by `Epetra_Import`: a processor that holds the id in the
source distribution is chosen. -/
structure Choice.Valid (ch : Choice) (own ovl newOvl : List (List Nat)) (bondMaps : List BlockMap) :
    Prop where
  ghost : ∀ (p : Nat) (o : List Nat), ovl[p]? = some o → ∀ x ∈ o,
    ∃ g, own[ch.ghost p x]? = some g ∧ x ∈ g
  point : ∀ (p : Nat) (o : List Nat), newOvl[p]? = some o → ∀ x ∈ o,
    ∃ g, ovl[ch.point p x]? = some g ∧ x ∈ g
  bond : ∀ (p x : Nat), (∃ m ∈ bondMaps, x ∈ m.gids) →
    ∃ m, bondMaps[ch.bond p x]? = some m ∧ x ∈ m.gids

/-- Field `f` is a point field with `k` entries per point that has data at step `s`. -/
def PointField (d : DManager α) (s : Field.Step) (f k : Nat) : Prop :=
  ∃ len ids, f ∈ ids ∧ Field.variableDimension len = .ok k ∧
    ((s = .none ∧ (len, ids) ∈ d.statelessPoint) ∨
      ((s = .n ∨ s = .np1) ∧ (len, ids) ∈ d.statefulPoint))

/-- Field `f` is a bond field that has data at step `s`. -/
def BondField (d : DManager α) (s : Field.Step) (f : Nat) : Prop :=
  (s = .none ∧ f ∈ d.statelessBond) ∨ ((s = .n ∨ s = .np1) ∧ f ∈ d.statefulBond)

end Verif.Redist
