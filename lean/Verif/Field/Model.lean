import Verif.Common.Outcome

/-!
# Model of the field registry

Models `PeridigmNS::FieldManager` and the enumerations of `PeridigmNS::PeridigmField`
(/repo/src/core/Peridigm_Field.hpp, /repo/src/core/Peridigm_Field.cpp).
-/

namespace Verif.Field

open Verif

/-- `PeridigmField::Relation`, src/core/Peridigm_Field.hpp:62-68. -/
inductive Relation where
  | undefined | node | element | bond | global
  deriving DecidableEq, Repr

/-- `PeridigmField::Length`, src/core/Peridigm_Field.hpp:73-88. -/
inductive Length where
  | undefined | length1 | length2 | length3 | length4 | length5 | length6 | length7 | length8
  | length9 | scalar | vector | symmetricTensor | fullTensor
  deriving DecidableEq, Repr

/-- `PeridigmField::Temporal`, src/core/Peridigm_Field.hpp:90-94. -/
inductive Temporal where
  | undefined | constant | twoStep
  deriving DecidableEq, Repr

/-- `PeridigmField::Step`, src/core/Peridigm_Field.hpp:96-101. -/
inductive Step where
  | undefined | none | n | np1
  deriving DecidableEq, Repr

/-- `PeridigmField::variableDimension`, src/core/Peridigm_Field.cpp:54-87.  The `default:` branch
throws `RangeError`. -/
def variableDimension : Length → Outcome Nat
  | .length1 => .ok 1
  | .length2 => .ok 2
  | .length3 => .ok 3
  | .length4 => .ok 4
  | .length5 => .ok 5
  | .length6 => .ok 6
  | .length7 => .ok 7
  | .length8 => .ok 8
  | .length9 => .ok 9
  | .scalar => .ok 1
  | .vector => .ok 3
  | .symmetricTensor => .ok 6
  | .fullTensor => .ok 9
  | .undefined => .fail .rangeError

/-- The four arguments of a registration request, src/core/Peridigm_Field.hpp:155-158. -/
structure Request where
  relation : Relation
  length : Length
  temporal : Temporal
  label : String
  deriving DecidableEq, Repr

/-- `FieldSpec`, src/core/Peridigm_Field.hpp:108-146.  The id is an `int` that is always
non-negative for registered specifications; it is a natural number here. -/
structure FieldSpec where
  relation : Relation
  length : Length
  temporal : Temporal
  label : String
  id : Nat
  deriving DecidableEq, Repr

/-- The data members of `FieldManager`, src/core/Peridigm_Field.hpp:221-225.
`labelToIdMap` is the `std::map<std::string,int>`: a list of pairs in which the first pair with a
given key is the one found, so that consing a pair models `labelToIdMap[label] = id`. -/
structure FieldManager where
  fieldSpecs : List FieldSpec
  labelToIdMap : List (String × Nat)
  specIsGlobal : List Bool
  deriving DecidableEq, Repr

/-- The private constructor, src/core/Peridigm_Field.hpp:213: all members are empty. -/
def FieldManager.empty : FieldManager := ⟨[], [], []⟩

/-- `transform(..., ::tolower)` on a copy of the label, src/core/Peridigm_Field.cpp:111-114.
Simplification: characters are Lean characters and `tolower` is that of the "C" locale, i.e. only
the letters A-Z are changed. -/
def lowerCase (s : String) : List Char := s.toList.map Char.toLower

/-- The test of the exact-match loop, src/core/Peridigm_Field.cpp:103. -/
def exactMatch (r : Request) (s : FieldSpec) : Bool :=
  r.relation == s.relation && r.length == s.length && r.temporal == s.temporal
    && r.label == s.label

/-- The test of the similar-label loop, src/core/Peridigm_Field.cpp:111-115. -/
def similarLabel (r : Request) (s : FieldSpec) : Bool :=
  lowerCase r.label == lowerCase s.label

/-- `FieldManager::getFieldId(relation, length, temporal, label)`,
src/core/Peridigm_Field.cpp:94-142: the first exact match is returned, otherwise a similar label
terminates the program, otherwise a new specification is appended. -/
def getFieldId (fm : FieldManager) (r : Request) : Outcome (Nat × FieldManager) :=
  match fm.fieldSpecs.find? (exactMatch r) with
  | some s => .ok (s.id, fm)
  | none =>
    if fm.fieldSpecs.any (similarLabel r) then .fail .terminate
    else
      let id := fm.fieldSpecs.length
      .ok (id,
        { fieldSpecs := fm.fieldSpecs ++ [⟨r.relation, r.length, r.temporal, r.label, id⟩]
          labelToIdMap := (r.label, id) :: fm.labelToIdMap
          specIsGlobal := fm.specIsGlobal ++
            [if r.relation = Relation.global then true else false] })

/-- `FieldManager::hasField(label)`, src/core/Peridigm_Field.cpp:144-149. -/
def hasField (fm : FieldManager) (label : String) : Bool :=
  match fm.labelToIdMap.lookup label with
  | none => false
  | some _ => true

/-- `FieldManager::getFieldId(label)`, src/core/Peridigm_Field.cpp:151-159. -/
def getFieldIdByLabel (fm : FieldManager) (label : String) : Outcome Nat :=
  match fm.labelToIdMap.lookup label with
  | none => .fail .terminate
  | some id => .ok id

/-- `FieldManager::getFieldSpec(fieldId)`, src/core/Peridigm_Field.cpp:161-166.  The argument is
cast to `unsigned int`, so a negative id is a large number and fails the same test; it is a natural
number here. -/
def getFieldSpec (fm : FieldManager) (id : Nat) : Outcome FieldSpec :=
  if _h : id ≥ fm.fieldSpecs.length then .fail .terminate else .ok (fm.fieldSpecs[id])

/-- `FieldManager::getFieldSpec(label)`, src/core/Peridigm_Field.cpp:168-171. -/
def getFieldSpecByLabel (fm : FieldManager) (label : String) : Outcome FieldSpec :=
  getFieldIdByLabel fm label >>= getFieldSpec fm

/-- `FieldManager::isGlobalSpec(fieldId)`, src/core/Peridigm_Field.hpp:170: an unchecked
`std::vector<bool>` index, undefined outside the vector. -/
def isGlobalSpec (fm : FieldManager) (id : Nat) : Outcome Bool :=
  match fm.specIsGlobal[id]? with
  | some b => .ok b
  | none => .ub

/-- A run: registration requests handled one after the other on the singleton
(`FieldManager::self`, src/core/Peridigm_Field.cpp:89-92), collecting the ids handed out.  A
rejected request terminates the program, so the run stops there. -/
def run (fm : FieldManager) : List Request → Outcome (List Nat × FieldManager)
  | [] => .ok ([], fm)
  | r :: rs =>
    match getFieldId fm r with
    | .ok (id, fm') =>
      match run fm' rs with
      | .ok (ids, fm'') => .ok (id :: ids, fm'')
      | .fail f => .fail f
      | .ub => .ub
    | .fail f => .fail f
    | .ub => .ub

end Verif.Field
