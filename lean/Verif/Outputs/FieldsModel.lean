import Verif.Explicit.Model
import Verif.Neigh.Model

/-!
# Fields that are computed for output only: acceleration, force, neighborhood volume, number of
neighbors; and the steps at which a file is written

Vectors of degrees of freedom are functions of the local index `3 * point + component`.  Each
definition treats one block; the loops over blocks call it for every block
(src/compute/Peridigm_Compute_Acceleration.cpp:75-82 and the same in the other classes).

Not modelled: the Exodus database (names, maps, truth tables); exceptions for bad parameters.
-/

noncomputable section

namespace Verif.Outputs

open Verif
open scoped Classical

/-! ### Acceleration and force -/

/-- The field `Acceleration` of a block whose material has density `rho`, from the force density
imported into the block.
Models `Compute_Acceleration::compute`, src/compute/Peridigm_Compute_Acceleration.cpp:70-86. -/
def fieldAcceleration (rho : ℝ) (force : Nat → ℝ) : Outcome (Nat → ℝ) :=
  if rho = 0 then .ub else .ok fun i => force i * (1 / rho)

/-- The field `Force` of a block with `n` points, `nf` and `no` being the numbers of points of the
force density and of the result; `none` is the return value 1 with the result unchanged.
Models `Compute_Force::compute`, src/compute/Peridigm_Compute_Force.cpp:72-108, and
`Compute_Contact_Force::compute`, src/compute/Peridigm_Compute_Contact_Force.cpp:72-109. -/
def fieldForce (n nf no : Nat) (volume density : Nat → ℝ) : Option (Nat → ℝ) :=
  if nf ≠ n ∨ no ≠ n then none
  else some fun i => if i / 3 < n then volume (i / 3) * density i else density i

/-! ### Neighborhoods -/

/-- The volumes of the neighbors, added to an accumulator: those of the points, or those stored for
the bonds from `bondIndex` on.  The result is the sum and the next index.
Models src/compute/Peridigm_Compute_Neighborhood_Volume.cpp:97-105. -/
def addVolumes (volume : Nat → ℝ) (partials : Option (Nat → ℝ)) : List Nat → Nat → ℝ → ℝ × Nat
  | [], bondIndex, acc => (acc, bondIndex)
  | j :: js, bondIndex, acc =>
    match partials with
    | none => addVolumes volume partials js bondIndex (acc + volume j)
    | some w => addVolumes volume partials js (bondIndex + 1) (acc + w bondIndex)

/-- The loop over the points, reading the neighborhood list from `off` on.
Models `Compute_Neighborhood_Volume::initialize`,
src/compute/Peridigm_Compute_Neighborhood_Volume.cpp:88-106. -/
def neighborhoodVolumes (volume : Nat → ℝ) (partials : Option (Nat → ℝ)) (l : List Nat) :
    Nat → Nat → Nat → Nat → (Nat → ℝ) → Outcome (Nat → ℝ)
  | 0, _, _, _, V => .ok V
  | n + 1, p, off, bondIndex, V =>
    match l[off]? with
    | none => .ub
    | some c =>
      if l.length < off + 1 + c then .ub
      else
        let r := addVolumes volume partials ((l.drop (off + 1)).take c) bondIndex (volume p)
        neighborhoodVolumes volume partials l n (p + 1) (off + 1 + c) r.2 (Function.update V p r.1)

/-- The loop over the points, reading the neighborhood list from `off` on.
Models `Compute_Number_Of_Neighbors::initialize`,
src/compute/Peridigm_Compute_Number_Of_Neighbors.cpp:75-80. -/
def numbersOfNeighbors (l : List Nat) : Nat → Nat → Nat → (Nat → ℝ) → Outcome (Nat → ℝ)
  | 0, _, _, V => .ok V
  | n + 1, p, off, V =>
    match l[off]? with
    | none => .ub
    | some c => numbersOfNeighbors l n (p + 1) (off + 1 + c) (Function.update V p (c : ℝ))

/-! ### Schedule of the output -/

/-- What an output manager keeps.
Models the members of `OutputManager_ExodusII` set at
src/io/Peridigm_OutputManager_ExodusII.cpp:72-143. -/
structure Manager where
  iWrite : Bool
  first : Int
  last : Int
  frequency : Int
  count : Int
  exodusCount : Int

/-- The parameters read from the input: no parameters at all, no output.
Models src/io/Peridigm_OutputManager_ExodusII.cpp:72-77, 111, 125-126, 143. -/
def Manager.create (params : Option (Option Int × Option Int × Option Int)) : Manager :=
  match params with
  | none => { iWrite := false, first := 0, last := 0, frequency := 0, count := 0, exodusCount := 0 }
  | some (f, i, j) =>
    { iWrite := true, first := i.getD 1, last := j.getD (Explicit.intMax - 1),
      frequency := f.getD (-1), count := 0, exodusCount := 0 }

/-- Whether nothing is written at the present count; the sum is undefined beyond `INT_MAX` and only
evaluated if the count is not below the first step.
Models src/io/Peridigm_OutputManager_ExodusII.cpp:225. -/
def Manager.skips (M : Manager) : Outcome Bool :=
  if M.count < M.first then .ok true
  else if Explicit.intMax < M.last + 1 then .ub
  else .ok (decide (M.last + 1 < M.count ∨ M.frequency ≤ 0 ∨ (M.count - 1).tmod M.frequency ≠ 0))

/-- One call of `write`: the manager afterwards and the record that is written, with its number in
the file and its time.
Models `OutputManager_ExodusII::write`, src/io/Peridigm_OutputManager_ExodusII.cpp:210-256. -/
def Manager.write (M : Manager) (time : ℝ) : Outcome (Manager × List (Int × ℝ)) :=
  if M.iWrite = false then .ok (M, [])
  else if Explicit.intMax < M.count + 1 then .ub
  else do
    let M1 := { M with count := M.count + 1 }
    let s ← M1.skips
    if s then .ok (M1, [])
    else .ok ({ M1 with exodusCount := M1.exodusCount + 1 }, [(M1.exodusCount + 1, time)])

/-- Calls of `write` at the given times.
Models the calls at src/core/Peridigm.cpp:1432, 1584 for the solvers one after the other: the first
time of a solver is its initial configuration. -/
def Manager.writes (M : Manager) : List ℝ → Outcome (Manager × List (Int × ℝ))
  | [] => .ok (M, [])
  | t :: ts => do
    let r ← M.write t
    let r' ← r.1.writes ts
    .ok (r'.1, r.2 ++ r'.2)

end Verif.Outputs
