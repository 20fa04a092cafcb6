import Verif.Deck.Model
import Verif.Mesh.TextSpec
import Verif.BC.Lemmas
import Mathlib.Data.Nat.Digits.Defs

/-!
# What the section of boundary conditions says

Written without the functions of the model: when a text names a word, what a sublist describes, which nodes a text lists,
and when a number is another one written with six digits.
-/

noncomputable section

namespace Verif.Deck

open Verif

/-- The text, without the blanks around it, is the word: in upper or lower case, with blanks or underscores. -/
def Named (s : Text) (w : String) : Prop :=
  ∃ a core b, s = List.replicate a ' ' ++ core ++ List.replicate b ' ' ∧ Mesh.Tight core ∧
    w.toList = core.map fun c => if c = ' ' then '_' else c.toUpper

/-- The same for the name of a node set, which may be made of blanks. -/
def Called (s : Text) (w : String) : Prop :=
  Named s w ∨ ∃ n, s = List.replicate n ' ' ∧ w.toList = List.replicate n '_'

/-- The word for a type in the user's guide. -/
def typeWord : BC.BCType → String
  | .prescribedDisplacement => "PRESCRIBED_DISPLACEMENT"
  | .prescribedFluidPressure => "PRESCRIBED_FLUID_PRESSURE_U"
  | .prescribedTemperature => "PRESCRIBED_TEMPERATURE"
  | .initialTemperature => "INITIAL_TEMPERATURE"
  | .thermalFlux => "THERMAL_FLUX"
  | .initialDisplacement => "INITIAL_DISPLACEMENT"
  | .initialVelocity => "INITIAL_VELOCITY"
  | .initialFluidPressure => "INITIAL_FLUID_PRESSURE_U"
  | .bodyForce => "BODY_FORCE"

/-- The word for a coordinate. -/
def axisWord (k : Fin 3) : String := if k = 0 then "X" else if k = 1 then "Y" else "Z"

/-- `q` is `r` rounded to six digits: the nearest number with an integer multiple of the unit of the sixth digit, the
even one of two. -/
def SixDigits (r q : ℝ) : Prop :=
  (r = 0 ∧ q = 0) ∨
  ∃ m e : Int, q = m * (10 : ℝ) ^ e ∧ |m| ≤ 10 ^ 6 ∧ (10 : ℝ) ^ (e + 5) ≤ |r| ∧ |r| < (10 : ℝ) ^ (e + 6) ∧
    |q - r| ≤ (10 : ℝ) ^ e / 2 ∧ (|q - r| = (10 : ℝ) ^ e / 2 → Even m)

/-- The number can be written with at most six digits. -/
def Short (r : ℝ) : Prop := ∃ m e : Int, |m| < 10 ^ 6 ∧ r = m * (10 : ℝ) ^ e

/-- The function a value stands for: a text that mentions `value` is taken as it is, any other one is assigned to it, and
a number is written with six digits. -/
def Means (R : Reader) (v : Option Scalar) (f : ℝ → ℝ → ℝ → ℝ → Option ℝ) : Prop :=
  (∃ s a b, v = some (.text s) ∧ s = a ++ "value".toList ++ b ∧ f = R.compile (.text s)) ∨
  (∃ s, v = some (.text s) ∧ (∀ a b, s ≠ a ++ "value".toList ++ b) ∧
    f = R.compile (.text ("value = ".toList ++ s))) ∨
  ∃ r q, v = some (.number r) ∧ SixDigits r q ∧ f = R.compile (.number q)

/-- The sublist describes the condition. -/
def Describes (R : Reader) (l : Sublist) (d : BC.Definition) : Prop :=
  (∃ s, l.type = some (.text s) ∧ Named s (typeWord d.type)) ∧
  (∃ s, l.nodeSet = some (.text s) ∧ Called s d.nodeSet) ∧
  (l.coordinate = none ∧ d.coord = 0 ∨ ∃ s, l.coordinate = some (.text s) ∧ Named s (axisWord d.coord)) ∧
  Means R l.value d.value

/-- The entry defines a node set: its name contains the words "node set". -/
def NamesSet (name : Text) : Prop := ∃ w a b, Named name w ∧ w.toList = a ++ "NODE_SET".toList ++ b

/-- The conditions of the section, in order.  Every entry defines a node set, is a list that describes a condition, or is
a list with the type that stands for no type. -/
inductive Reads (R : Reader) : List (Text × Entry) → List BC.Definition → Prop
  | nil : Reads R [] []
  | set {n e es ds} : NamesSet n → Reads R es ds → Reads R ((n, e) :: es) ds
  | void {n l s es ds} : ¬ NamesSet n → l.type = some (.text s) → Named s "NO_SUCH_BOUNDARY_CONDITION_TYPE" →
      Reads R es ds → Reads R ((n, .list l) :: es) ds
  | condition {n l d es ds} : ¬ NamesSet n → Describes R l d → Reads R es ds →
      Reads R ((n, .list l) :: es) (d :: ds)

/-- The initial conditions of a definition. -/
def initialOf (d : BC.Definition) : List BC.Condition :=
  match d.type with
  | .initialDisplacement => [BC.obj d .u .dirichlet]
  | .initialVelocity => [BC.obj d .v .dirichlet]
  | .initialFluidPressure => [BC.obj d .fluidPressureU .dirichlet]
  | .initialTemperature => [BC.obj d .temperature .dirichlet]
  | _ => []

/-- Types for fields with one value for each node. -/
def OfScalar (t : BC.BCType) : Prop :=
  t = .prescribedFluidPressure ∨ t = .initialFluidPressure ∨ t = .initialTemperature ∨ t = .prescribedTemperature ∨
    t = .thermalFlux

/-! ### Lists of nodes -/

/-- White space. -/
def White (s : Text) : Prop := ∀ c ∈ s, isSpace c = true

/-- Numbers written with digits, with white space between them. -/
inductive Lists : Text → List Nat → Prop
  | last {w ds : Text} : White w → ds ≠ [] → (∀ c ∈ ds, c.isDigit = true) →
      Lists (w ++ ds) [Nat.ofDigits 10 (ds.reverse.map fun c => c.toNat - 48)]
  | cons {w ds : Text} {c : Char} {s : Text} {ns : List Nat} : White w → ds ≠ [] → (∀ c ∈ ds, c.isDigit = true) →
      isSpace c = true → Lists (c :: s) ns →
      Lists (w ++ ds ++ c :: s) (Nat.ofDigits 10 (ds.reverse.map fun c => c.toNat - 48) :: ns)

/-- What a line of a file lists: it is a comment or empty, white space, or a list. -/
inductive LineLists : Text → List Nat → Prop
  | silent {t} : Mesh.Silent t → LineLists t []
  | white {t} : White t → LineLists t []
  | list {s t ns} : Lists s ns → White t → (∀ n ∈ ns, 1 ≤ n) → LineLists (s ++ t) ns

/-- The characters of numbers and of the space between them. -/
def InNumber (c : Char) : Prop := isSpace c = true ∨ c.isDigit = true ∨ c = '+' ∨ c = '-'

/-- The node sets of the section: names with nodes, in order. -/
inductive ReadsSets (R : Reader) : List (Text × Entry) → List (String × List Nat) → Prop
  | nil : ReadsSets R [] []
  | other {n e es ls} : ¬ NamesSet n → ReadsSets R es ls → ReadsSets R ((n, e) :: es) ls
  | set {n w s l es ls} : Named n w → NamesSet n → readNodes R s = .ok l → ReadsSets R es ls →
      ReadsSets R ((n, .scalar (.text s)) :: es) ((w, l) :: ls)

end Verif.Deck
