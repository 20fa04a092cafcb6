import Verif.Common.Outcome
import Mathlib.Data.Real.Basic
import Mathlib.Algebra.Order.Archimedean.Real.Basic

/-!
# Field data read from a file during the run (model)

Models `DataLoader`, src/core/Peridigm_DataLoader.cpp, on one processor.  The data file is the list
of its time steps, each with its time and its nodal values.  Opening the file, finding the variable
and comparing the node maps (src/core/Peridigm_DataLoader.cpp:63-191), and the error codes of the
Exodus library, are not modelled.
-/

namespace Verif.Storage

open Verif

/-- A time step of the data file: time and values by local node.
Models what `ex_get_all_times` and `ex_get_var` return at src/core/Peridigm_DataLoader.cpp:304,
321-325. -/
structure FileStep where
  time : ℝ
  data : Nat → ℝ

/-- The members of `DataLoader` that change.  `scratch` is an outcome because a division by zero in
the interpolation leaves NaNs in the vector.
Models `time_`, `time_1_`, `time_2_`, `data_1_`, `data_2_`, `scratch_`,
src/core/Peridigm_DataLoader.cpp:60-61, 67-70. -/
structure Loader where
  time : ℝ
  time1 : ℝ
  time2 : ℝ
  data1 : Nat → ℝ
  data2 : Nat → ℝ
  scratch : Outcome (Nat → ℝ)

/-- The loader as constructed: all times are -1, all vectors zero.
Models src/core/Peridigm_DataLoader.cpp:60-61, 67-70. -/
def Loader.new : Loader :=
  { time := -1, time1 := -1, time2 := -1, data1 := fun _ => 0, data2 := fun _ => 0,
    scratch := .ok fun _ => 0 }

open Classical in
/-- The first two consecutive steps of the file with the time between them.
Models the loop at src/core/Peridigm_DataLoader.cpp:307-316. -/
noncomputable def findBracket (t : ℝ) : List FileStep → Option (FileStep × FileStep)
  | a :: b :: rest =>
      if a.time ≤ t ∧ t ≤ b.time then some (a, b) else findBracket t (b :: rest)
  | _ => none

/-- Reads the two steps around `time_`; `none` is the exception of line 318, thrown before anything
but `time_` has been changed.
Models `DataLoader::loadDataFromFile`, src/core/Peridigm_DataLoader.cpp:286-330. -/
noncomputable def Loader.readFile (file : List FileStep) (s : Loader) : Option Loader :=
  match findBracket s.time file with
  | none => none
  | some (a, b) =>
      some { s with time1 := a.time, time2 := b.time, data1 := a.data, data2 := b.data }

open Classical in
/-- The interpolated values.
Models src/core/Peridigm_DataLoader.cpp:215-218. -/
noncomputable def Loader.interpolated (s : Loader) : Outcome (Nat → ℝ) :=
  if s.time2 - s.time1 = 0 then .ub
  else .ok fun i =>
    (1 - (s.time - s.time1) / (s.time2 - s.time1)) * s.data1 i +
      (s.time - s.time1) / (s.time2 - s.time1) * s.data2 i

open Classical in
/-- The two steps needed for `time_`: those held, unless the time is outside of them.
Models src/core/Peridigm_DataLoader.cpp:208-212. -/
noncomputable def Loader.refresh (file : List FileStep) (s : Loader) : Option Loader :=
  if s.time < s.time1 ∨ s.time > s.time2 then s.readFile file else some s

/-- A request for a time other than the last one.
Models src/core/Peridigm_DataLoader.cpp:206-218; the result is what lines 222-224 put into the
blocks. -/
noncomputable def Loader.update (file : List FileStep) (s : Loader) :
    Loader × Outcome (Nat → ℝ) :=
  match s.refresh file with
  | none => (s, .fail .runtimeError)
  | some s' => ({ s' with scratch := s'.interpolated }, s'.interpolated)

open Classical in
/-- One request.  The state after an exception is kept, as the object lives on.
Models `DataLoader::loadData`, src/core/Peridigm_DataLoader.cpp:201-225. -/
noncomputable def Loader.load (file : List FileStep) (s : Loader) (t : ℝ) :
    Loader × Outcome (Nat → ℝ) :=
  if t ≠ s.time then { s with time := t }.update file else (s, s.scratch)

/-- The loader after a sequence of requests.
Models repeated calls of `DataLoader::loadData`, src/core/Peridigm.cpp:1383, 1430, 1530, 1582. -/
noncomputable def Loader.after (file : List FileStep) (s : Loader) (ts : List ℝ) : Loader :=
  ts.foldl (fun s t => (s.load file t).1) s

end Verif.Storage
