import Verif.Explicit.Model
import Mathlib.Data.Int.Log
import Mathlib.Data.Nat.Digits.Lemmas
import Mathlib.Algebra.Order.Round

/-!
# Restart files (model)

Models `InitializeRestart`, `setRestartNames`, `writeRestart`, `readRestart` and
`firstNumbersSring`, src/core/Peridigm.cpp:958-1074, 1281-1288, 4449-4651, for analyses without
multiphysics (with multiphysics the run is ended, lines 4471-4474, 4559-4564).

The Matrix Market files written and read by Trilinos are taken to give back what was written (they
hold 17 significant digits); the time, which Peridigm writes itself, is not.  Times are real numbers.
-/

noncomputable section

namespace Verif.Storage

open Verif Verif.BC
open scoped Classical

/-! ### Names of directories -/

/-- Decimal digits, most significant first; none for zero. -/
def digitChars (n : Nat) : List Char := (Nat.digits 10 n).reverse.map Nat.digitChar

/-- `%06d`.
Models the format at src/core/Peridigm.cpp:4457. -/
def pad6 (n : Nat) : List Char := List.replicate (6 - (digitChars n).length) '0' ++ digitChars n

/-- `restart-%06d`.
Models src/core/Peridigm.cpp:4457; for 0 and 1 the literals at src/core/Peridigm.cpp:974, 1003. -/
def restartName (n : Nat) : List Char := ['r', 'e', 's', 't', 'a', 'r', 't', '-'] ++ pad6 n

/-- The first run of digits in a string.
Models `firstNumbersSring`, src/core/Peridigm.cpp:958-967. -/
def firstNumbers (s : List Char) : List Char :=
  (s.dropWhile fun c => !c.isDigit).takeWhile fun c => c.isDigit

/-- `atoi` of a string of digits; values beyond the largest `int` are not modelled.
Models the call at src/core/Peridigm.cpp:4456. -/
def atoi (s : List Char) : Nat := s.foldl (fun acc c => 10 * acc + (c.toNat - 48)) 0

/-! ### The time -/

/-- The value of a number after it has been written with the default precision of a stream, six
significant digits, and read back.  Ties, which the stream breaks according to the binary value, are
rounded up.
Models `outputFile << currentTime`, src/core/Peridigm.cpp:4468, and `atof`,
src/core/Peridigm.cpp:4545. -/
def sig6 (t : ℝ) : ℝ :=
  if t = 0 then 0
  else round (t / (10 : ℝ) ^ (Int.log 10 |t| - 5)) * (10 : ℝ) ^ (Int.log 10 |t| - 5)

/-! ### Data -/

/-- What a running analysis holds: mothership vectors, accelerations, the data of the blocks that
are written (states N and NP1), and everything that is not (state NONE, contact data, and what else
is set up by the constructor). -/
structure Live (κ β : Type) where
  vecs : Vecs
  a : Nat → ℝ
  kept : κ
  blocks : β

/-- The vectors that are written and read; temperature and fluid pressure are not.
Models src/core/Peridigm.cpp:4487-4521, 4585-4644; the other vectors in these lists are constant or
computed anew in each step. -/
def savedVec : Target → Bool
  | .u | .v | .y | .deltaU | .deltaTemperature | .externalForce => true
  | _ => false

/-- Content of a restart directory.  `time` is the value in `currentTime.txt`, if there is one. -/
structure Stored (β : Type) where
  time : Option ℝ
  vecs : Vecs
  a : Nat → ℝ
  blocks : β

/-- Directories named `restart*`, the most recently changed first. -/
abbrev Disk (β : Type) := List (List Char × Stored β)

/-- The content of a directory.
Models the files opened at src/core/Peridigm.cpp:4538, 4566-4650. -/
def Disk.find {β : Type} (disk : Disk β) (name : List Char) : Option (Stored β) :=
  (List.find? (fun p => p.1 = name) disk).map fun p => p.2

/-- Puts files into a directory: a new one is the most recent; files replaced in an existing one do
not change the time of the directory.
Models `mkdir`, whose failure is not noticed, and the writing of the files,
src/core/Peridigm.cpp:4460-4461, 4467-4527. -/
def Disk.put {β : Type} (disk : Disk β) (name : List Char) (d : Stored β) : Disk β :=
  if name ∈ disk.map Prod.fst then disk.map fun p => if p.1 = name then (name, d) else p
  else (name, d) :: disk

/-- The members that concern restarts: `restartFiles["path"]` and `currentTime`, on processor 0. -/
structure Session where
  path : List Char
  time : ℝ

/-- The data after reading: what is stored replaces what the constructor has set up.
Models src/core/Peridigm.cpp:4566-4650. -/
def restored {κ β : Type} (fresh : Live κ β) (d : Stored β) : Live κ β :=
  { vecs := fun t => if savedVec t then d.vecs t else fresh.vecs t, a := d.a, kept := fresh.kept,
    blocks := d.blocks }

/-- Reads a directory.  If the time file cannot be opened the time is zero.
Models `Peridigm::readRestart`, src/core/Peridigm.cpp:4530-4651. -/
def readRestart {κ β : Type} (d : Stored β) (timeInitial : ℝ) (fresh : Live κ β) :
    Outcome (ℝ × Live κ β) :=
  if d.time.getD 0 ≠ timeInitial then .fail .runtimeError
  else .ok (d.time.getD 0, restored fresh d)

/-- Beginning of an analysis with restart.  The last component tells whether data were read.
Models `Peridigm::InitializeRestart`, src/core/Peridigm.cpp:969-1007. -/
def beginRestart {κ β : Type} (disk : Disk β) (timeInitial : ℝ) (fresh : Live κ β) :
    Outcome (Session × Live κ β × Bool) :=
  if (disk.find (restartName 1)).isSome then
    match disk with
    | [] => .fail .terminate
    | (name, d) :: _ => do
        let r ← readRestart d timeInitial fresh
        .ok ({ path := name, time := r.1 }, r.2, true)
  else .ok ({ path := restartName 0, time := timeInitial }, fresh, false)

/-- Writes a restart directory after a solver that went from the one time to the other.
Models `Peridigm::writeRestart`, src/core/Peridigm.cpp:4449-4528. -/
def writeRestart {κ β : Type} (s : Session) (timeInitial timeFinal : ℝ) (live : Live κ β)
    (disk : Disk β) : Session × Disk β :=
  let path := restartName (atoi (firstNumbers s.path) + 1)
  let time := s.time + (timeFinal - timeInitial)
  ({ path := path, time := time },
   disk.put path { time := some (sig6 time), vecs := live.vecs, a := live.a,
                   blocks := live.blocks })

/-- A solver that has been executed: initial and final time, and the state it left. -/
abbrev Solved (κ β : Type) := ℝ × ℝ × Live κ β

/-- The restart directories written by the solvers of an analysis.
Models `Peridigm::executeSolvers`, src/core/Peridigm.cpp:1281-1288. -/
def writeAll {κ β : Type} (s : Session) (disk : Disk β) : List (Solved κ β) → Session × Disk β
  | [] => (s, disk)
  | r :: rs =>
      writeAll (writeRestart s r.1 r.2.1 r.2.2 disk).1 (writeRestart s r.1 r.2.1 r.2.2 disk).2 rs

/-! ### Explicit time integration after a restart -/

/-- `executeExplicit` when restart data were read: the evaluation of the initial configuration is
skipped.  `reload` is the copy of the mothership vectors into state NP1 before the time loop.
Models src/core/Peridigm.cpp:1316-1322, 1366-1378, 1388, 1447-1590. -/
def resumeExplicit {κ β : Type} (P : Explicit.Params) (C : Ctx) (cs : Conditions)
    (eval : Explicit.Eval (κ × β)) (reload : Vecs → κ × β → κ × β) (r : Live κ β) :
    Outcome (Explicit.State (κ × β)) := do
  let n ← Explicit.numSteps P
  Explicit.run P C cs eval
    { vecs := r.vecs, a := r.a, time := P.timeInitial, blocks := reload r.vecs (r.kept, r.blocks) } n

/-- The state of the integrator as seen by `writeRestart`.
Models src/core/Peridigm.cpp:1283-1285. -/
def liveOf {κ β : Type} (s : Explicit.State (κ × β)) : Live κ β :=
  { vecs := s.vecs, a := s.a, kept := s.blocks.1, blocks := s.blocks.2 }

end Verif.Storage
