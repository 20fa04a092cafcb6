import Verif.BC.Model
import Verif.Mesh.TextModel
import Verif.Setup.DeficientModel
import Mathlib.Data.Int.Log

/-!
# Model of the section of boundary conditions of the input

From the parameter list to the node sets and the condition objects: the constructor and `initialize` of the
`BoundaryAndInitialConditionManager`, the functions that turn words into enumerations, and the constructor of
`BoundaryCondition`; and how the parser evaluates the text of a condition.

Simplifications:
* Texts are lists of (ASCII) characters; integers are unbounded (the stream and `strtol` saturate).
* What the run-time compiler makes of a text is a parameter, and so is what a file holds.
* A condition for a vector field whose coordinate is the word `NO_SUCH_SPATIAL_COORDINATE` is built by the code with the
  index -1, and writes outside of its node when applied; here the outcome is `ub` at once.
* Numbers are exact reals.
-/

noncomputable section

namespace Verif.Deck

open Verif

abbrev Text := List Char

/-! ### Words -/

/-- `tidy_string` (`toupper` in the locale "C").
Models src/core/Peridigm_Enums.cpp:307-321. -/
def tidy (s : Text) : Text :=
  (Mesh.trim (s.map Char.toUpper)).map fun c => if c = ' ' then '_' else c

/-- `string_boundary_condition`; `none` is `NO_SUCH_BOUNDARY_CONDITION_TYPE`.
Models src/core/Peridigm_Enums.cpp:81-90, 101-104. -/
def typeWords : List (String × Option BC.BCType) :=
  [("PRESCRIBED_DISPLACEMENT", some .prescribedDisplacement),
   ("PRESCRIBED_FLUID_PRESSURE_U", some .prescribedFluidPressure),
   ("PRESCRIBED_TEMPERATURE", some .prescribedTemperature),
   ("INITIAL_TEMPERATURE", some .initialTemperature),
   ("THERMAL_FLUX", some .thermalFlux),
   ("INITIAL_DISPLACEMENT", some .initialDisplacement),
   ("INITIAL_VELOCITY", some .initialVelocity),
   ("INITIAL_FLUID_PRESSURE_U", some .initialFluidPressure),
   ("BODY_FORCE", some .bodyForce),
   ("NO_SUCH_BOUNDARY_CONDITION_TYPE", none)]

/-- `string_spatial_coordinate` with `to_index`; `none` is -1.
Models src/core/Peridigm_Enums.cpp:76-79, 97-100, 238-257. -/
def coordinateWords : List (String × Option (Fin 3)) :=
  [("X", some 0), ("Y", some 1), ("Z", some 2), ("NO_SUCH_SPATIAL_COORDINATE", none)]

/-- Looks a word up; an unknown one is an exception.
Models src/core/Peridigm_Enums.cpp:219-236, 276-295. -/
def lookUp {α : Type} (words : List (String × α)) (s : Text) : Outcome α :=
  match words.find? fun w => decide (w.1.toList = tidy s) with
  | some w => .ok w.2
  | none => .fail .runtimeError

/-! ### The parameter list -/

/-- A parameter that is not a list: text, a double, or anything else (an integer, a flag). -/
inductive Scalar where
  | text (s : Text)
  | number (r : ℝ)
  | other

/-- The parameters of a sublist that the code looks at. -/
structure Sublist where
  type : Option Scalar
  nodeSet : Option Scalar
  coordinate : Option Scalar
  value : Option Scalar

/-- An entry of the section. -/
inductive Entry where
  | scalar (v : Scalar)
  | list (l : Sublist)

/-- `get<string>` and `getValue<string>`: a missing parameter and one of another type are exceptions.
Models the calls at src/core/Peridigm_BoundaryCondition.cpp:68, 77 and src/core/Peridigm_Enums.cpp:213, 273. -/
def getText : Option Scalar → Outcome Text
  | some (.text s) => .ok s
  | _ => .fail .runtimeError

/-- `getValue<string>` of an entry of the section.
Models src/core/Peridigm_BoundaryAndInitialConditionManager.cpp:220, 224. -/
def Entry.getText : Entry → Outcome Text
  | .scalar v => Deck.getText (some v)
  | .list _ => .fail .runtimeError

/-- The section: the parameter "Create Node Set For Rank Deficient Nodes", which the constructor takes out, and the
other entries in the order of the list.
Models src/core/Peridigm_BoundaryAndInitialConditionManager.cpp:60-68 (a parameter of that name that is no flag is an
exception and is left out here). -/
structure Input where
  create : Option Bool
  entries : List (Text × Entry)

/-- `createRankDeficientNodesNodeSet`.
Models src/core/Peridigm_BoundaryAndInitialConditionManager.cpp:61-64. -/
def Input.creates (I : Input) : Bool := I.create.getD false

/-- `name.find("NODE_SET") != npos` for the tidied name.
Models src/core/Peridigm_BoundaryAndInitialConditionManager.cpp:82-84, 212-215. -/
def isSetName (name : Text) : Bool := decide ("NODE_SET".toList <:+: tidy name)

/-! ### Values -/

/-- Rounds to the nearest integer, and from half way to the even one. -/
def roundEven (q : ℝ) : Int :=
  if q - ⌊q⌋ < 1 / 2 then ⌊q⌋
  else if 1 / 2 < q - ⌊q⌋ then ⌊q⌋ + 1
  else if Even ⌊q⌋ then ⌊q⌋ else ⌊q⌋ + 1

/-- The number that `ss << r` writes: six significant digits, the precision a stream has.  (Whether it is written with an
exponent does not matter here.)
Models src/core/Peridigm_BoundaryCondition.cpp:72-75. -/
def printed (r : ℝ) : ℝ :=
  if r = 0 then 0
  else
    (if r < 0 then -1 else 1) * roundEven (|r| / (10 : ℝ) ^ (Int.log 10 |r| - 5)) * (10 : ℝ) ^ (Int.log 10 |r| - 5)

/-- What the run-time compiler gets: a text, or the assignment of a number written by the stream. -/
inductive Body where
  | text (s : Text)
  | number (q : ℝ)

/-- The body from the text of a condition.
Models src/core/Peridigm_BoundaryCondition.cpp:164-166, 216-218. -/
def prefixed (s : Text) : Text := if "value".toList <:+: s then s else "value = ".toList ++ s

/-- `function`: a double is printed, anything else has to be a text.
Models src/core/Peridigm_BoundaryCondition.cpp:71-77. -/
def readValue : Option Scalar → Outcome Body
  | some (.number r) => .ok (.number (printed r))
  | v => do
    let s ← getText v
    .ok (.text (prefixed s))

/-! ### A condition -/

/-- What is fixed: what the compiler makes of a body, and what the files hold (`none` for one that cannot be opened). -/
structure Reader where
  compile : Body → ℝ → ℝ → ℝ → ℝ → Option ℝ
  files : Text → Option Text

/-- `to_boundary_condition_type`.
Models src/core/Peridigm_Enums.cpp:271-274. -/
def readType (l : Sublist) : Outcome (Option BC.BCType) := do
  let s ← getText l.type
  lookUp typeWords s

/-- `to_index(to_spatial_coordinate(..))`: without the parameter it is x.
Models src/core/Peridigm_Enums.cpp:210-214, src/core/Peridigm_BoundaryCondition.cpp:70. -/
def readCoordinate (l : Sublist) : Outcome (Option (Fin 3)) :=
  match l.coordinate with
  | none => .ok (some 0)
  | some v => do
    let s ← getText (some v)
    lookUp coordinateWords s

/-- Types whose fields have one value for each node.
Models the vectors chosen at src/core/Peridigm_BoundaryAndInitialConditionManager.cpp:93-174. -/
def isScalarType : BC.BCType → Bool
  | .prescribedFluidPressure | .initialFluidPressure | .initialTemperature | .prescribedTemperature
  | .thermalFlux => true
  | _ => false

/-- The members of `BoundaryCondition`.
Models src/core/Peridigm_BoundaryCondition.cpp:66-77. -/
def readSublist (R : Reader) (t : BC.BCType) (l : Sublist) : Outcome BC.Definition := do
  let ns ← getText l.nodeSet
  let k ← readCoordinate l
  let b ← readValue l.value
  match k with
  | some k => .ok ⟨t, String.ofList (tidy ns), k, R.compile b⟩
  | none => if isScalarType t then .fail .runtimeError else .ub

/-- One pass of the loop of `initialize`.
Models src/core/Peridigm_BoundaryAndInitialConditionManager.cpp:79-181 and
src/core/Peridigm_BoundaryCondition.cpp:250-252. -/
def addEntry (R : Reader) (sets : BC.NodeSets) (cs : BC.Conditions) (e : Text × Entry) : Outcome BC.Conditions :=
  if isSetName e.1 then .ok cs
  else
    match e.2 with
    | .scalar _ => .fail .runtimeError
    | .list l => do
      let t ← readType l
      match t with
      | none => .ok cs
      | some t => do
        let d ← readSublist R t l
        let cs' ← BC.addDefinition cs d
        if t = .thermalFlux ∧ sets d.nodeSet = none then .fail .terminate else .ok cs'

/-! ### Node sets -/

/-- White space of the locale "C". -/
def isSpace (c : Char) : Bool :=
  c = ' ' || c = '\t' || c = '\n' || c = '\r' || c.toNat = 11 || c.toNat = 12

/-- The value of decimal digits. -/
def digitsValue (ds : Text) : Nat := ds.foldl (fun n c => 10 * n + (c.toNat - 48)) 0

/-- The outcomes of `>>` into an integer: nothing left but white space, something that is no number, a number. -/
inductive Scan where
  | nothing
  | notNumber
  | number (i : Int) (rest : Text)

/-- A sign, if there is one. -/
def splitSign : Text → Bool × Text
  | '-' :: s => (true, s)
  | '+' :: s => (false, s)
  | s => (false, s)

/-- `ss >> nodeID`.
Models src/core/Peridigm_BoundaryAndInitialConditionManager.cpp:227, 246-248. -/
def scanInt (s : Text) : Scan :=
  match s.dropWhile isSpace with
  | [] => .nothing
  | c :: cs =>
    let t := splitSign (c :: cs)
    let ds := t.2.takeWhile Char.isDigit
    if ds = [] then .notNumber
    else .number (if t.1 then -(digitsValue ds : Int) else digitsValue ds) (t.2.dropWhile Char.isDigit)

/-- The loop over a list in the input.  `last` is the content of `nodeID`, not set at first; what is left when only white
space remains is taken once more.
Models src/core/Peridigm_BoundaryAndInitialConditionManager.cpp:222-232. -/
def readList : Nat → Option Int → Text → Outcome (List Nat)
  | 0, _, _ => .ub
  | fuel + 1, last, s =>
    match scanInt s with
    | .nothing =>
      match last with
      | none => .ub
      | some i => .ok [(i - 1).toNat]
    | .notNumber => .fail .runtimeError
    | .number i rest =>
      if i < 1 then .fail .runtimeError
      else if rest = [] then .ok [(i - 1).toNat]
      else do
        let l ← readList fuel (some i) rest
        .ok ((i - 1).toNat :: l)

/-- The numbers of a line, up to the first thing that is none (`istream_iterator`).
Models src/core/Peridigm_BoundaryAndInitialConditionManager.cpp:244-248. -/
def lineNumbers : Nat → Text → List Int
  | 0, _ => []
  | fuel + 1, s =>
    match scanInt s with
    | .number i rest => i :: lineNumbers fuel rest
    | _ => []

/-- The nodes of one line of a file.
Models src/core/Peridigm_BoundaryAndInitialConditionManager.cpp:239-254. -/
def readLine (s : Text) : Outcome (List Nat) :=
  if Mesh.isComment (Mesh.trim s) then .ok []
  else if (lineNumbers (Mesh.trim s).length (Mesh.trim s)).any fun i => decide (i < 1) then .fail .runtimeError
  else .ok ((lineNumbers (Mesh.trim s).length (Mesh.trim s)).map fun i => (i - 1).toNat)

/-- The nodes of a file.
Models src/core/Peridigm_BoundaryAndInitialConditionManager.cpp:238-256. -/
def readLines : List Text → Outcome (List Nat)
  | [] => .ok []
  | s :: ss => do
    let l ← readLine s
    let ls ← readLines ss
    .ok (l ++ ls)

/-- Octal and hexadecimal digits. -/
def isOctal (c : Char) : Bool := 48 ≤ c.toNat && c.toNat ≤ 55

@[inherit_doc isOctal]
def isHex (c : Char) : Bool :=
  c.isDigit || (97 ≤ c.toNat && c.toNat ≤ 102) || (65 ≤ c.toNat && c.toNat ≤ 70)

/-- `strtol(.., 0) != 0`: the digits at the beginning, decimal, octal after a zero or hexadecimal after 0x, are not all
zero.
Models src/core/Peridigm_BoundaryAndInitialConditionManager.cpp:528-529. -/
def strtolNonzero (s : Text) : Bool :=
  match (splitSign (s.dropWhile isSpace)).2 with
  | '0' :: c :: cs =>
    if c = 'x' ∨ c = 'X' then (cs.takeWhile isHex).any (· ≠ '0')
    else ((c :: cs).takeWhile isOctal).any (· ≠ '0')
  | t => (t.takeWhile Char.isDigit).any (· ≠ '0')

/-- `nodeSetStringToFileName`: the name of a file, empty for a list.
Models src/core/Peridigm_BoundaryAndInitialConditionManager.cpp:508-532. -/
def fileName (s : Text) : Text :=
  if (Mesh.trim s).any fun c => decide (c = ' ' ∨ c = '\t') then []
  else if strtolNonzero (Mesh.trim s) = true ∨ Mesh.trim s = "0".toList ∨ Mesh.trim s = "+0".toList
      ∨ Mesh.trim s = "-0".toList then []
  else Mesh.trim s

/-- The nodes of a set defined in the input.
Models src/core/Peridigm_BoundaryAndInitialConditionManager.cpp:219-258. -/
def readNodes (R : Reader) (s : Text) : Outcome (List Nat) :=
  if (fileName s).length = 0 then readList (s.length + 1) none s
  else
    match R.files (fileName s) with
    | none => .fail .runtimeError
    | some content => readLines (Mesh.fileLines content)

/-- One pass of the first loop of `initializeNodeSets`.
Models src/core/Peridigm_BoundaryAndInitialConditionManager.cpp:210-259. -/
def addSet (R : Reader) (sets : BC.NodeSets) (e : Text × Entry) : Outcome BC.NodeSets :=
  if isSetName e.1 then
    match sets (String.ofList (tidy e.1)) with
    | some _ => .fail .runtimeError
    | none => do
      let s ← e.2.getText
      let l ← readNodes R s
      BC.addNodeSet sets (String.ofList (tidy e.1)) l
  else .ok sets

/-- The sets of the mesh.
Models src/core/Peridigm_BoundaryAndInitialConditionManager.cpp:261-269. -/
def addMeshSet (sets : BC.NodeSets) (e : Text × List Nat) : Outcome BC.NodeSets :=
  BC.addNodeSet sets (String.ofList (tidy e.1)) e.2

/-- `initializeNodeSets`.
Models src/core/Peridigm_BoundaryAndInitialConditionManager.cpp:205-286. -/
def readSets (R : Reader) (I : Input) (mesh : List (Text × List Nat)) (owned : List Nat) : Outcome BC.NodeSets := do
  let sets ← I.entries.foldlM (addSet R) fun _ => none
  let sets ← mesh.foldlM addMeshSet sets
  .ok (BC.cull owned (Setup.addPlaceholder I.creates sets))

/-- The manager after `initialize`. -/
structure Manager where
  sets : BC.NodeSets
  conditions : BC.Conditions

/-- `initialize`.
Models src/core/Peridigm_BoundaryAndInitialConditionManager.cpp:70-203. -/
def setUp (R : Reader) (I : Input) (mesh : List (Text × List Nat)) (owned : List Nat) : Outcome Manager := do
  let sets ← readSets R I mesh owned
  let cs ← I.entries.foldlM (addEntry R sets)
    { boundary := if I.creates then Setup.deficientConditions else [] }
  .ok ⟨sets, cs⟩

/-! ### The variables of the compiled function -/

/-- The variables of the compiled function. -/
structure Variables where
  x : ℝ
  y : ℝ
  z : ℝ
  t : ℝ
  value : ℝ

/-- Both evaluations of the parser, with the variables the function leaves behind: the second one starts with what the
first one left, but for the time.  The result is (current, previous).
Models src/core/Peridigm_BoundaryCondition.cpp:103-131. -/
def evaluateTwice (program : Variables → Option Variables) (x y z tc tp : ℝ) : Outcome (ℝ × ℝ) :=
  match program ⟨x, y, z, tp, 0⟩ with
  | none => .fail .runtimeError
  | some v =>
    match program { v with t := tc } with
    | none => .fail .runtimeError
    | some w => .ok (w.value, v.value)

open Classical in
/-- `evaluateParser` with the function as a program.
Models src/core/Peridigm_BoundaryCondition.cpp:98-148. -/
def evaluateProgram (C : BC.Ctx) (type : BC.BCType) (coord : Nat) (program : Variables → Option Variables)
    (u : Nat → ℝ) (l : Nat) (tc tp : ℝ) : Outcome (ℝ × ℝ) := do
  let r ← evaluateTwice program (C.x (l * 3)) (C.x (l * 3 + 1)) (C.x (l * 3 + 2)) tc tp
  .ok (r.1, if type = .prescribedDisplacement ∧ r.1 - r.2 = 0 then u (l * 3 + coord) else r.2)

end Verif.Deck
