import Verif.Common.Outcome
import Mathlib.Data.Real.Basic
import Mathlib.Analysis.SpecialFunctions.Exp

/-!
# Model of material constants, horizons, influence functions and block definitions

Models `Material::calculateBulkModulus`, `Material::calculateShearModulus`, `HorizonManager`,
`InfluenceFunction`, `scalarInfluenceFunction`, `Peridigm::initializeBlocks` and
`Discretization::blockNameToBlockId`.

Simplifications: real arithmetic; `TEUCHOS_TEST_FOR_EXCEPT_MSG`, which throws, is the outcome
`fail runtimeError`; the run-time compiler that evaluates user-written formulas is a parameter; lists of
block names are given as lists of names (in the code separated by white space); parameters have the
types the code asks for unless said otherwise.
-/

noncomputable section

namespace Verif.Params

open Verif
open scoped Classical

/-! ### Elastic constants -/

/-- The constants in a material's parameter list.
Models src/materials/Peridigm_Material.cpp:337-362. -/
structure Constants where
  bulk : Option ℝ := none
  shear : Option ℝ := none
  young : Option ℝ := none
  poisson : Option ℝ := none
  planeStrain : Bool := false
  planeStress : Bool := false

/-- `numDefinedConstants`.
Models src/materials/Peridigm_Material.cpp:364-367, 414-417. -/
def Constants.count (c : Constants) : Nat :=
  c.bulk.isSome.toNat + c.shear.isSome.toNat + c.young.isSome.toNat + c.poisson.isSome.toNat

/-- A quotient; division by zero is undefined. -/
def quotient (a b : ℝ) : Outcome ℝ := if b = 0 then .ub else .ok (a / b)

/-- Models src/materials/Peridigm_Material.cpp:376-381. -/
def bulkFromYoungPoisson (planeStrain planeStress : Bool) (e n : ℝ) : Outcome ℝ :=
  if planeStrain then quotient e (2 * (1 - n - 2 * n * n))
  else if planeStress then quotient e (2 * (1 - n))
  else quotient e (3 * (1 - 2 * n))

/-- The chain of cases of `calculateBulkModulus`.
Models src/materials/Peridigm_Material.cpp:371-385. -/
def bulkCases (c : Constants) : Outcome ℝ :=
  match c.bulk, c.shear, c.young, c.poisson with
  | some k, _, _, _ => .ok k
  | none, some g, some e, _ => quotient (e * g) (3 * (3 * g - e))
  | none, _, some e, some n => bulkFromYoungPoisson c.planeStrain c.planeStress e n
  | none, some g, none, some n => quotient (2 * g * (1 + n)) (3 * (1 - 2 * n))
  | _, _, _, _ => .fail .runtimeError

/-- `Material::calculateBulkModulus`.
Models src/materials/Peridigm_Material.cpp:335-388. -/
def bulkModulus (c : Constants) : Outcome ℝ :=
  if c.count ≠ 2 then .fail .runtimeError else bulkCases c

/-- The chain of cases of `calculateShearModulus`.
Models src/materials/Peridigm_Material.cpp:421-430. -/
def shearCases (c : Constants) : Outcome ℝ :=
  match c.shear, c.bulk, c.young, c.poisson with
  | some g, _, _, _ => .ok g
  | none, some k, some e, _ => quotient (3 * k * e) (9 * k - e)
  | none, some k, none, some n => quotient (3 * k * (1 - 2 * n)) (2 * (1 + n))
  | none, none, some e, some n => quotient e (2 * (1 + n))
  | _, _, _, _ => .fail .runtimeError

/-- `Material::calculateShearModulus`.
Models src/materials/Peridigm_Material.cpp:391-433. -/
def shearModulus (c : Constants) : Outcome ℝ :=
  if c.count ≠ 2 then .fail .runtimeError else shearCases c

/-! ### Horizons -/

/-- What a block definition gives as `Horizon`; `missing` also stands for values of other types. -/
inductive HorizonValue where
  | constant (h : ℝ)
  | formula (s : String)
  | missing

/-- One entry of the `Blocks` section. -/
structure HorizonDef where
  horizon : HorizonValue
  names : List String

/-- `horizonIsConstant` and `horizonStrings`, which always have the same keys.  Simplified: a constant
horizon is kept as the number, in the code as text with sixteen digits.
Models src/core/Peridigm_HorizonManager.hpp (data members). -/
structure Horizons where
  table : String → Option HorizonValue

/-- The key under which a name is filed.
Models src/core/Peridigm_HorizonManager.cpp:101-108. -/
def horizonKey (name : String) : String :=
  if name = "Default" ∨ name = "default" ∨ name = "DEFAULT" then "default" else name

/-- Models src/core/Peridigm_HorizonManager.cpp:100-109. -/
def fileHorizon (v : HorizonValue) (m : Horizons) (name : String) : Horizons :=
  ⟨Function.update m.table (horizonKey name) (some v)⟩

/-- One pass of the loop over the entries of the `Blocks` section.
Models src/core/Peridigm_HorizonManager.cpp:73-109. -/
def loadHorizon (m : Horizons) (d : HorizonDef) : Outcome Horizons :=
  match d.horizon with
  | .missing => .fail .runtimeError
  | v => .ok (d.names.foldl (fileHorizon v) m)

/-- `loadHorizonInformationFromBlockParameters`.
Models src/core/Peridigm_HorizonManager.cpp:69-111. -/
def loadHorizons (m : Horizons) (ds : List HorizonDef) : Outcome Horizons := ds.foldlM loadHorizon m

/-- The look-up shared by `blockHasConstantHorizon`, `getBlockConstantHorizonValue`, `evaluateHorizon`.
Models src/core/Peridigm_HorizonManager.cpp:115-122, 127-135, 142-150. -/
def findHorizon (m : Horizons) (name : String) : Outcome HorizonValue :=
  match m.table name with
  | some v => .ok v
  | none => match m.table "default" with
    | some v => .ok v
    | none => .fail .terminate

/-- The run-time compiler: the value of a formula at a place, none if it cannot be compiled or
executed. -/
abbrev Compiler := String → (Fin 3 → ℝ) → Option ℝ

/-- Evaluating an entry.  Simplified: the text of a constant evaluates to that constant.
Models src/core/Peridigm_HorizonManager.cpp:151-176. -/
def horizonValue (rtc : Compiler) (v : HorizonValue) (x : Fin 3 → ℝ) : Outcome ℝ :=
  match v with
  | .constant h => .ok h
  | .formula s => match rtc s x with
    | some h => .ok h
    | none => .fail .terminate
  | .missing => .fail .terminate

/-- `evaluateHorizon`.
Models src/core/Peridigm_HorizonManager.cpp:141-177. -/
def evaluateHorizon (rtc : Compiler) (m : Horizons) (name : String) (x : Fin 3 → ℝ) : Outcome ℝ := do
  let v ← findHorizon m name
  horizonValue rtc v x

/-- `blockHasConstantHorizon`.
Models src/core/Peridigm_HorizonManager.cpp:113-124. -/
def hasConstantHorizon (m : Horizons) (name : String) : Outcome Bool := do
  let v ← findHorizon m name
  match v with
  | .constant _ => .ok true
  | _ => .ok false

/-- `getBlockConstantHorizonValue`.
Models src/core/Peridigm_HorizonManager.cpp:126-139. -/
def constantHorizon (rtc : Compiler) (m : Horizons) (name : String) : Outcome ℝ := do
  let _ ← findHorizon m name
  evaluateHorizon rtc m name 0

/-- The horizon a discretization uses for a point of a block.
Models src/io/discretization/Peridigm_TextFileDiscretization.cpp:259-275 and
src/io/discretization/Peridigm_ExodusDiscretization.cpp:132-148. -/
def pointHorizon (rtc : Compiler) (m : Horizons) (name : String) (x : Fin 3 → ℝ) : Outcome ℝ := do
  let c ← hasConstantHorizon m name
  if c then constantHorizon rtc m name else evaluateHorizon rtc m name x

/-! ### Influence functions -/

/-- `PeridigmInfluenceFunction::one`.
Models src/core/Peridigm_InfluenceFunction.hpp:69-71. -/
def one (_zeta _horizon : ℝ) : Outcome ℝ := .ok 1

/-- `PeridigmInfluenceFunction::parabolicDecay`.
Models src/core/Peridigm_InfluenceFunction.hpp:73-80. -/
def parabolicDecay (zeta horizon : ℝ) : Outcome ℝ :=
  if horizon < zeta then .ok 0
  else if horizon = 0 then .ub
  else .ok (if zeta / horizon < 0.5 then 1
    else -4 * (zeta / horizon) * (zeta / horizon) + 4 * (zeta / horizon))

/-- `PeridigmInfluenceFunction::gaussian`.
Models src/core/Peridigm_InfluenceFunction.hpp:82-87. -/
def gaussian (zeta horizon : ℝ) : Outcome ℝ :=
  if horizon * horizon * 0.4 * 0.4 = 0 then .ub
  else .ok (Real.exp (-(zeta * zeta) / (horizon * horizon * 0.4 * 0.4)))

/-- The functions a function pointer may point to. -/
inductive Kind where
  | one | parabolic | gaussian | user
  deriving DecidableEq

/-- The run-time compiler for influence functions: body, bond length and horizon. -/
abbrev Compiler2 := String → ℝ → ℝ → Option ℝ

/-- The singleton with the body held by the run-time compiler, and the pointer cached inside
`scalarInfluenceFunction`.
Models src/core/Peridigm_InfluenceFunction.hpp:170-176 and src/materials/material_utilities.cxx:154. -/
structure Influence where
  selected : Kind
  body : Option String
  cached : Option Kind

/-- At program start.
Models src/core/Peridigm_InfluenceFunction.cpp:59-62 and src/materials/material_utilities.cxx:154. -/
def Influence.start : Influence := ⟨.one, none, none⟩

/-- `setInfluenceFunction`; `compiles` says which bodies the compiler accepts.
Models src/core/Peridigm_InfluenceFunction.hpp:121-147. -/
def Influence.select (compiles : String → Bool) (s : Influence) (name : String) : Outcome Influence :=
  if name = "One" then .ok { s with selected := .one }
  else if name = "Parabolic Decay" then .ok { s with selected := .parabolic }
  else if name = "Gaussian" then .ok { s with selected := .gaussian }
  else if compiles name then .ok { s with selected := .user, body := some name }
  else .fail .runtimeError

/-- Calling a function pointer; a user function that cannot be evaluated gives zero.
Models src/core/Peridigm_InfluenceFunction.cpp:70-80 and src/materials/material_utilities.cxx:158. -/
def call (rtc : Compiler2) (body : Option String) (k : Kind) (zeta horizon : ℝ) : Outcome ℝ :=
  match k with
  | .one => one zeta horizon
  | .parabolic => parabolicDecay zeta horizon
  | .gaussian => gaussian zeta horizon
  | .user => match body with
    | some b => .ok ((rtc b zeta horizon).getD 0)
    | none => .ok 0

/-- The pointer `scalarInfluenceFunction` uses.
Models src/materials/material_utilities.cxx:154-156. -/
def Influence.pointer (s : Influence) : Kind := s.cached.getD s.selected

/-- `scalarInfluenceFunction`: value and new state.
Models src/materials/material_utilities.cxx:148-159. -/
def Influence.scalar (rtc : Compiler2) (s : Influence) (zeta horizon : ℝ) : Outcome (ℝ × Influence) := do
  let w ← call rtc s.body s.pointer zeta horizon
  .ok (w, { s with cached := some s.pointer })

/-! ### Block definitions -/

/-- `PeridigmNS::Block`: name, id and parameters. -/
structure Block (P : Type) where
  name : String
  id : ℤ
  params : P

/-- White space skipped before a number. -/
def isBlank (c : Char) : Bool := c = ' ' || c = '\t' || c = '\n' || c = '\r'

/-- Value of a list of decimal digits. -/
def digitsValue (ds : List Char) : Nat := ds.foldl (fun v c => 10 * v + (c.toNat - 48)) 0

/-- A number that does not fit an `int` is replaced by the nearest one that does. -/
def clampInt (v : ℤ) : ℤ := max (-2147483648) (min 2147483647 v)

/-- Sign and digits at the start of a text; without digits the result is zero. -/
def signedValue (cs : List Char) : ℤ :=
  match cs with
  | '-' :: r => clampInt (-(digitsValue (r.takeWhile Char.isDigit) : ℤ))
  | '+' :: r => clampInt (digitsValue (r.takeWhile Char.isDigit))
  | r => clampInt (digitsValue (r.takeWhile Char.isDigit))

/-- `stream >> id` for an `int` that holds `old`: if nothing but white space is left `old` stays.
Models the extractions src/core/Peridigm.cpp:1163-1165 and
src/io/discretization/Peridigm_Discretization.cpp:224-225, 229-230. -/
def extractInt (cs : List Char) (old : ℤ) : ℤ :=
  match cs.dropWhile isBlank with
  | [] => old
  | c :: r => signedValue (c :: r)

/-- `find_first_of` and `find_last_of`: the first and last position of a character of a set. -/
def findFirstOf (set : List Char) (cs : List Char) : Option Nat := cs.findIdx? (· ∈ set)

@[inherit_doc findFirstOf]
def findLastOf (set : List Char) (cs : List Char) : Option Nat :=
  (cs.reverse.findIdx? (· ∈ set)).map fun i => cs.length - 1 - i

/-- `substr`: a start beyond the end throws. -/
def substr (cs : List Char) (pos len : Nat) : Outcome (List Char) :=
  if cs.length < pos then .fail .outOfRange else .ok ((cs.drop pos).take len)

/-- `size_t` is unsigned with 64 bits. -/
def wrap (v : ℤ) : Nat := (v % 2 ^ 64).toNat

/-- `Discretization::blockNameToBlockId`.
Models src/io/discretization/Peridigm_Discretization.cpp:209-237. -/
def blockNameToBlockId (name : List Char) : Outcome ℤ :=
  match findFirstOf ['G', 'R', 'A', 'I', 'N'] name, findLastOf ['_', 'S', 'E', 'T'] name with
  | some p, some s => do
    let t ← substr name (p + 5) (wrap ((s : ℤ) - 4 - p - 5 + 1))
    .ok (extractInt t (-1))
  | _, _ => match findLastOf ['_'] name with
    | some u => do
      let t ← substr name (u + 1) name.length
      .ok (extractInt t (-1))
    | none => .fail .runtimeError

/-- The id of a block of the analysis.  The variable is not initialised: if no text follows the
underscore its value is undefined.
Models src/core/Peridigm.cpp:1161-1165, 1184-1188. -/
def blockId (name : List Char) : Outcome ℤ :=
  match findLastOf ['_'] name with
  | none => .fail .runtimeError
  | some u => if ((name.drop (u + 1)).dropWhile isBlank).isEmpty then .ub
    else .ok (extractInt (name.drop (u + 1)) 0)

/-- One entry of the `Blocks` section. -/
structure BlockDef (P : Type) where
  params : P
  names : List String

variable {P : Type}

/-- Blocks collected so far and the default parameters. -/
structure Collected (P : Type) where
  blocks : List (Block P)
  default : Option P

/-- One name of a definition.
Models src/core/Peridigm.cpp:1153-1168. -/
def collectName (p : P) (s : Collected P) (name : String) : Outcome (Collected P) :=
  if name = "Default" ∨ name = "default" then .ok { s with default := some p }
  else do
    let i ← blockId name.toList
    .ok { s with blocks := s.blocks ++ [⟨name, i, p⟩] }

/-- One definition.
Models src/core/Peridigm.cpp:1143-1169. -/
def collectDef (s : Collected P) (d : BlockDef P) : Outcome (Collected P) :=
  d.names.foldlM (collectName d.params) s

/-- Adding a block of the mesh with the default parameters.
Models src/core/Peridigm.cpp:1174-1192. -/
def addDefault (p : P) (bs : List (Block P)) (name : String) : Outcome (List (Block P)) :=
  if name ∈ bs.map Block.name then .ok bs
  else do
    let i ← blockId name.toList
    .ok (bs ++ [⟨name, i, p⟩])

/-- Models src/core/Peridigm.cpp:1171-1193. -/
def addDefaults (mesh : List String) (s : Collected P) : Outcome (List (Block P)) :=
  match s.default with
  | none => .ok s.blocks
  | some p => mesh.foldlM (addDefault p) s.blocks

/-- `blockError`.
Models src/core/Peridigm.cpp:1195-1205. -/
def blockError (mesh : List String) (bs : List (Block P)) : Bool :=
  mesh.length ≠ bs.length || bs.any fun b => b.name ∉ mesh

/-- `Peridigm::initializeBlocks`.
Models src/core/Peridigm.cpp:1131-1218. -/
def initializeBlocks (mesh : List String) (ds : List (BlockDef P)) : Outcome (List (Block P)) := do
  let s ← ds.foldlM collectDef ⟨[], none⟩
  let bs ← addDefaults mesh s
  if blockError mesh bs then .fail .runtimeError else .ok bs

end Verif.Params
