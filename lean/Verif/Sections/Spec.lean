import Verif.Sections.Model
import Verif.Outputs.FieldsSpec

/-!
# What the sections of output of the input mean

Stated with the entries of the sections and the fields that were registered.
-/

noncomputable section

namespace Verif.Sections

open Verif Verif.Field

/-- The names a section may have. -/
def knownNames : List String :=
  ["MyPID", "NumProc", "Output File Type", "Output Filename", "Initial Output Step", "Final Output Step",
   "Output Format", "Output Frequency", "Parallel Write", "Output Variables"]

/-- A section that can be used when the fields `rs` are registered.  The names `MyPID` and `NumProc` may have any
value: the program replaces it. -/
structure Usable (rs : List Request) (s : Section) : Prop where
  known : ∀ n v, (n, v) ∈ s → n ∈ knownNames
  frequency : ∀ v, ("Output Frequency", v) ∈ s → ∃ i, v = .int i
  initial : ∀ v, ("Initial Output Step", v) ∈ s → ∃ i, v = .int i
  final : ∀ v, ("Final Output Step", v) ∈ s → ∃ i, v = .int i
  filename : ∀ v, ("Output Filename", v) ∈ s → ∃ t, v = .text t
  fileType : ∀ v, ("Output File Type", v) ∈ s → v = .text "ExodusII"
  format : ∀ v, ("Output Format", v) ∈ s → v = .text "BINARY"
  parallel : ∀ v, ("Parallel Write", v) ∈ s → ∃ b, v = .flag b
  vars : ∀ v, ("Output Variables", v) ∈ s → ∃ l, v = .list l ∧
    ∀ n o, (n, o) ∈ l → (∃ b, o = some b) ∧ ∃ r ∈ rs, r.label = n ∧ r.relation ≠ .bond

/-- The value `x` is the one the section gives for `name`, or the default. -/
def Setting {α : Type} (s : Section) (name : String) (form : α → Entry) (default x : α) : Prop :=
  (∀ v, (name, form v) ∈ s → x = v) ∧ ((∀ w, (name, w) ∉ s) → x = default)

/-- The manager does what the section says, for processor `pid` of `numProc`. -/
structure Means (rs : List Request) (numProc pid : Int) (s : Section) (m : Manager) : Prop where
  numProc : m.numProc = numProc
  pid : m.pid = pid
  writes : m.schedule.iWrite = true
  count : m.schedule.count = 0
  records : m.schedule.exodusCount = 0
  frequency : Setting s "Output Frequency" .int (-1) m.schedule.frequency
  initial : Setting s "Initial Output Step" .int 1 m.schedule.first
  final : Setting s "Final Output Step" .int 2147483646 m.schedule.last
  base : Setting s "Output Filename" .text "dump" m.base
  neighborlist : m.neighborlist = false
  names : ∀ l, ("Output Variables", .list l) ∈ s → m.vars.map Exodus.Var.name = l.map Prod.fst
  none : (∀ w, ("Output Variables", w) ∉ s) → m.vars = []
  specs : ∀ v ∈ m.vars, ∃ r ∈ rs, r.label = v.name ∧ v.spec.label = v.name ∧ v.spec.relation = r.relation ∧
    v.spec.length = r.length ∧ v.spec.temporal = r.temporal
  globalOnly : m.globalOnly = true ↔ ∀ v ∈ m.vars, v.spec.relation = .global

/-- The entries of the input whose names contain the word `Output`. -/
def outputEntries (deck : List (String × Top)) : List (String × Top) :=
  deck.filter fun e => decide ("Output".toList <:+: e.1.toList)

/-- The lists among them. -/
def sections (deck : List (String × Top)) : List Section :=
  (outputEntries deck).filterMap fun e => match e.2 with
    | .value => none
    | .list s => some s

/-- The fields `rs` were registered without conflict, among them the two that the program registers in any case. -/
structure Registered (rs : List Request) (ids : List Nat) (fm : FieldManager) : Prop where
  run : Field.run FieldManager.empty rs = .ok (ids, fm)
  proc : ⟨.element, .scalar, .constant, "Proc_Num"⟩ ∈ rs
  element : ⟨.element, .scalar, .constant, "Element_Id"⟩ ∈ rs

/-- No list of the input has two entries of the same name (Teuchos refuses input that has). -/
def Proper (deck : List (String × Top)) : Prop :=
  ∀ n s, (n, Top.list s) ∈ deck → (s.map Prod.fst).Nodup

/-- Every entry of the input whose name contains the word `Output` is a section that can be used. -/
def AllUsable (rs : List Request) (deck : List (String × Top)) : Prop :=
  ∀ e ∈ outputEntries deck, ∃ s, e.2 = .list s ∧ Usable rs s

end Verif.Sections
