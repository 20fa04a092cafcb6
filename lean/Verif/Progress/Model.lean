import Mathlib.Data.Nat.Digits.Defs
import Mathlib.Data.List.Basic

/-!
# The display of progress (model)

Models `Peridigm::displayProgress` in src/core/Peridigm.cpp:4419-4448 and its calls in
`Peridigm::executeExplicit`, lines 1434-1437, 1447, 1466-1467 and 1591-1592.

The number of steps is the value of `nsteps`; it is not negative (a negative one makes no steps, as zero).  The
numbers that the code computes in `double` are quotients of integers truncated to an integer: the quotients of line
1467 differ from the next integer by at least 2^-31 and those of lines 4440 and 4443 by at least 1/100, much more
than they are rounded by, so truncation gives the integer quotients used here.  The output of the root processor is
modelled; on the others `out` discards it.
-/

namespace Verif.Progress

/-- `numMarks`.
Models src/core/Peridigm.cpp:4422. -/
def numMarks : Nat := 20

/-- An integer as it is written by `operator<<`.
Models src/core/Peridigm.cpp:4433-4434. -/
def decimal (p : Nat) : List Char := Nat.toDigits 10 p

/-- The string `ss`.  `w` is `numMarks+2-stringSize`, the number of marks.
Models src/core/Peridigm.cpp:4433-4445. -/
def bar (title : List Char) (p : Nat) : List Char :=
  let w := numMarks + 2 - (decimal p).length
  title ++ [' ', '['] ++ List.replicate (p * w / 100) '=' ++ decimal p ++ "% Complete".toList ++
    List.replicate (w - p * w / 100) '=' ++ [']', ' ']

/-- The number of backspaces.
Models src/core/Peridigm.cpp:4429. -/
def backspaces (title : List Char) : Nat := numMarks + 16 + title.length

/-- The characters written by a call, `first` being the value of `firstCall`.
Models src/core/Peridigm.cpp:4420-4447. -/
def displayProgress (first : Bool) (title : List Char) (p : Nat) : List Char :=
  if first then bar title p else List.replicate (backspaces title) '\x08' ++ bar title p

/-- The title of the calls.
Models src/core/Peridigm.cpp:1467, 1591. -/
def explicitTitle : List Char := "Explicit time integration".toList

/-- `displayTrigger`.
Models src/core/Peridigm.cpp:1435-1437. -/
def displayTrigger (nsteps : Nat) : Nat := if nsteps / 100 = 0 then 1 else nsteps / 100

/-- The percentages of the calls, in their order; `k` is `step-1`.
Models src/core/Peridigm.cpp:1447, 1466-1467 and 1591. -/
def calls (nsteps : Nat) : List Nat :=
  ((List.range nsteps).filter fun k => k % displayTrigger nsteps = 0).map (fun k => k * 100 / nsteps) ++ [100]

/-- The characters written by successive calls, and the value of `firstCall` afterwards. -/
def display (title : List Char) : Bool → List Nat → Bool × List Char
  | first, [] => (first, [])
  | first, p :: ps =>
      let r := display title false ps
      (r.1, displayProgress first title p ++ r.2)

/-- What one `executeExplicit` displays of its progress; `firstCall` is static and survives it.
Models src/core/Peridigm.cpp:1434-1437, 1447, 1466-1467, 1591-1592. -/
def explicitOutput (first : Bool) (nsteps : Nat) : Bool × List Char :=
  let r := display explicitTitle first (calls nsteps)
  (r.1, r.2 ++ ['\n', '\n'])

/-- What several solvers display, one after the other.
Models the calls of `executeExplicit` at src/core/Peridigm.cpp:1261-1284. -/
def explicitOutputs : Bool → List Nat → List Char
  | _, [] => []
  | first, n :: ns =>
      let r := explicitOutput first n
      r.2 ++ explicitOutputs r.1 ns

end Verif.Progress
