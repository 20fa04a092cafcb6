import Verif.Exodus.Model
import Verif.Outputs.FieldsModel
import Verif.Setup.Model

/-!
# Model of the sections of output of the input

From the parameter list of the input to the output managers: `Peridigm::initializeOutputManager`, the constructor of
`OutputManager_ExodusII` with the list it validates against, and the container that passes every call on to all managers.

Simplifications:
* A parameter list is the list of its entries in the order of the list; no two have the same name.  Integers are
  those of `int`.
* What `Teuchos::ParameterList::validateParameters` does is taken from its documentation: every entry must be in the list
  of valid entries; an entry with a validator must satisfy it, one without must have the type of the valid entry; lists
  are validated in the same way.
* Copies and sorting of the valid field specifications are left out: they end up as names in a parameter list.
* Printing is left out.
-/

noncomputable section

namespace Verif.Sections

open Verif Verif.Field

/-- An entry of a section: an integer, a double, text, a flag, or a list.  Of the entries of a list within the section it
matters whether they are flags (`none`: anything else). -/
inductive Entry where
  | int (i : Int)
  | number
  | text (s : String)
  | flag (b : Bool)
  | list (l : List (String × Option Bool))
  deriving DecidableEq

/-- A section of output: its entries in the order of the list. -/
abbrev Section := List (String × Entry)

/-- `ParameterList::set`: an entry of the name is replaced, whatever its type, else one is added at the end.
Models the calls at src/core/Peridigm.cpp:1245-1246. -/
def Section.set (s : Section) (name : String) (v : Entry) : Section :=
  if name ∈ s.map Prod.fst then s.map fun e => if e.1 = name then (name, v) else e
  else s ++ [(name, v)]

/-- `get("Output File Type", "ExodusII")`: the default is added if the entry is missing; an entry of another type is an
exception.
Models src/core/Peridigm.cpp:1248. -/
def Section.fileType (s : Section) : Outcome (String × Section) :=
  match s.lookup "Output File Type" with
  | none => .ok ("ExodusII", s.set "Output File Type" (.text "ExodusII"))
  | some (.text t) => .ok (t, s)
  | some _ => .fail .runtimeError

/-! ### Validation -/

/-- What a valid entry allows. -/
inductive Kind where
  | int
  | text
  | choice (l : List String)
  | flag
  | list

/-- The list of valid entries.
Models src/io/Peridigm_OutputManager_ExodusII.cpp:158-171, 197-201. -/
def validEntries : List (String × Kind) :=
  [("MyPID", .int), ("NumProc", .int), ("Output File Type", .text), ("Output Filename", .text),
   ("Initial Output Step", .int), ("Final Output Step", .int), ("Output Format", .choice ["ASCII", "BINARY"]),
   ("Output Frequency", .int), ("Parallel Write", .flag), ("Output Variables", .list)]

/-- The names of valid output variables: those of all fields that are not bond data, and two that are known to be valid.
Models src/io/Peridigm_OutputManager_ExodusII.cpp:173-201. -/
def validVariables (fm : FieldManager) : Outcome (List String) := do
  let p ← getFieldSpecByLabel fm "Proc_Num"
  let e ← getFieldSpecByLabel fm "Element_Id"
  .ok (((fm.fieldSpecs.filter fun s => decide (s.relation ≠ .bond)) ++ [p, e]).map FieldSpec.label)

/-- One entry against the list of valid entries.
Models the call src/io/Peridigm_OutputManager_ExodusII.cpp:84. -/
def entryValid (names : List String) (e : String × Entry) : Bool :=
  match validEntries.lookup e.1, e.2 with
  | some .int, .int _ => true
  | some .text, .text _ => true
  | some (.choice c), .text t => decide (t ∈ c)
  | some .flag, .flag _ => true
  | some .list, .list l => l.all fun v => decide (v.1 ∈ names) && v.2.isSome
  | _, _ => false

/-! ### Reading -/

/-- `get<int>`; `none` where the entry is missing.
Models the calls src/io/Peridigm_OutputManager_ExodusII.cpp:96-111, 125-126. -/
def Section.getInt (s : Section) (name : String) : Outcome (Option Int) :=
  match s.lookup name with
  | none => .ok none
  | some (.int i) => .ok (some i)
  | some _ => .fail .runtimeError

/-- `get<string>` with a default.
Models the calls src/io/Peridigm_OutputManager_ExodusII.cpp:114, 122. -/
def Section.getText (s : Section) (name default : String) : Outcome String :=
  match s.lookup name with
  | none => .ok default
  | some (.text t) => .ok t
  | some _ => .fail .runtimeError

/-- `get<bool>` with a default.
Models the call src/io/Peridigm_OutputManager_ExodusII.cpp:118. -/
def Section.getFlag (s : Section) (name : String) (default : Bool) : Outcome Bool :=
  match s.lookup name with
  | none => .ok default
  | some (.flag b) => .ok b
  | some _ => .fail .runtimeError

/-- `sublist(params, "Output Variables")`: an empty list is created if there is none.
Models src/io/Peridigm_OutputManager_ExodusII.cpp:129. -/
def Section.variableList (s : Section) : Outcome (List (String × Bool)) :=
  match s.lookup "Output Variables" with
  | none => .ok []
  | some (.list l) => .ok (l.map fun v => (v.1, v.2.getD false))
  | some _ => .fail .runtimeError

/-- What an output manager keeps of its section.
Models the members set at src/io/Peridigm_OutputManager_ExodusII.cpp:72-143; those that decide when it writes are in
`Outputs.Manager`. -/
structure Manager where
  numProc : Int
  pid : Int
  schedule : Outputs.Manager
  neighborlist : Bool
  base : String
  vars : List Exodus.Var
  globalOnly : Bool

/-- The constructor of `OutputManager_ExodusII`.
Models src/io/Peridigm_OutputManager_ExodusII.cpp:72-143. -/
def construct (fm : FieldManager) (s : Section) : Outcome Manager := do
  let names ← validVariables fm
  if s.all (entryValid names) = false then .fail .invalidArgument
  else do
    let np ← s.getInt "NumProc"
    match np with
    | none => .fail .invalidArgument
    | some np => do
      let pid ← s.getInt "MyPID"
      match pid with
      | none => .fail .invalidArgument
      | some pid => do
        let f ← s.getInt "Output Frequency"
        let format ← s.getText "Output Format" "BINARY"
        if format ≠ "BINARY" then .fail .invalidArgument
        else do
          let nl ← s.getFlag "Bond Family" false
          if np ≠ 1 ∧ nl = true then .fail .invalidArgument
          else do
            let base ← s.getText "Output Filename" "dump"
            let i ← s.getInt "Initial Output Step"
            let j ← s.getInt "Final Output Step"
            let l ← s.variableList
            let vars ← Exodus.requested fm l
            .ok ⟨np, pid, Outputs.Manager.create (some (f, i, j)), nl, base, vars, Exodus.globalDataOnly vars⟩

/-! ### The input -/

/-- An entry of the input at the highest level: a list or anything else. -/
inductive Top where
  | value
  | list (s : Section)

/-- One section: the number of processors and the rank are put in, the type of the file is checked.
Models src/core/Peridigm.cpp:1244-1253. -/
def openSection (fm : FieldManager) (numProc pid : Int) (s : Section) : Outcome Manager := do
  let t ← ((s.set "NumProc" (.int numProc)).set "MyPID" (.int pid)).fileType
  if t.1 ≠ "ExodusII" then .fail .invalidArgument else construct fm t.2

/-- One entry of the input: one whose name contains "Output" must be a list.
Models src/core/Peridigm.cpp:1228-1254. -/
def openEntry (fm : FieldManager) (numProc pid : Int) (acc : List Manager) (e : String × Top) : Outcome (List Manager) :=
  if Setup.contains "Output" e.1 = true then
    match e.2 with
    | .value => .fail .runtimeError
    | .list s => do
      let m ← openSection fm numProc pid s
      .ok (acc ++ [m])
  else .ok acc

/-- `Peridigm::initializeOutputManager`.
Models src/core/Peridigm.cpp:1220-1256. -/
def openAll (fm : FieldManager) (numProc pid : Int) (deck : List (String × Top)) : Outcome (List Manager) :=
  deck.foldlM (openEntry fm numProc pid) []

/-! ### The container -/

/-- Records with their numbers in the file and their times. -/
abbrev Recs := List (Int × ℝ)

/-- `OutputManagerContainer::write`: every manager in turn.
Models src/io/Peridigm_OutputManagerContainer.hpp:72-76. -/
def containerWrite : List Outputs.Manager → ℝ → Outcome (List (Outputs.Manager × Recs))
  | [], _ => .ok []
  | m :: ms, t => do
    let r ← m.write t
    let rs ← containerWrite ms t
    .ok (r :: rs)

/-- The calls at the given times.
Models the calls src/core/Peridigm.cpp:1432, 1584 for the solvers one after the other. -/
def containerWrites : List Outputs.Manager → List ℝ → Outcome (List (Outputs.Manager × Recs))
  | ms, [] => .ok (ms.map fun m => (m, []))
  | ms, t :: ts => do
    let rs ← containerWrite ms t
    let out ← containerWrites (rs.map Prod.fst) ts
    .ok (List.zipWith (fun a b => (b.1, a.2 ++ b.2)) rs out)

end Verif.Sections
