import Verif.Setup.Model
import Mathlib.Analysis.SpecialFunctions.Pow.Real

/-!
# Sizes of the elements (model)

Models the smallest and largest radius of the elements of a discretization, which
src/io/discretization/Peridigm_ExodusDiscretization.cpp:188-203,
src/io/discretization/Peridigm_TextFileDiscretization.cpp:107-122 and
src/io/discretization/Peridigm_PdQuickGridDiscretization.cpp:182-184, 223-225 compute, and their use in
src/core/Peridigm.cpp:372-374, 423-424 and 794-808.

* Numbers are exact.  The decimal constants of the code are kept as they are.
-/

namespace Verif.Sizes

open Verif

/-- Radius of the ball of a volume.
Models src/io/discretization/Peridigm_ExodusDiscretization.cpp:190 and
src/io/discretization/Peridigm_TextFileDiscretization.cpp:109. -/
noncomputable def radius (v : ℝ) : ℝ := (0.238732414637843 * v) ^ (0.33333333333333333 : ℝ)

/-- One element; for a negative volume `pow` gives no number, which is neither smaller nor larger than any number.
Models src/io/discretization/Peridigm_ExodusDiscretization.cpp:190-194 and
src/io/discretization/Peridigm_TextFileDiscretization.cpp:109-113. -/
noncomputable def scan (m : ℝ × ℝ) (v : ℝ) : ℝ × ℝ :=
  if v < 0 then m
  else (if radius v < m.1 then radius v else m.1, if m.2 < radius v then radius v else m.2)

/-- The elements of one processor.
Models src/io/discretization/Peridigm_ExodusDiscretization.cpp:76-77, 189-195 and
src/io/discretization/Peridigm_TextFileDiscretization.cpp:71-72, 108-114. -/
noncomputable def onProcessor (volumes : List ℝ) : ℝ × ℝ := volumes.foldl scan (10 ^ 50, 0)

/-- `MinAll` and `MaxAll`.  There is at least one processor.
Models src/io/discretization/Peridigm_ExodusDiscretization.cpp:196-203 and
src/io/discretization/Peridigm_TextFileDiscretization.cpp:115-122. -/
noncomputable def reduce : List (ℝ × ℝ) → Outcome (ℝ × ℝ)
  | [] => .ub
  | m :: ms => .ok (ms.foldl (fun a b => (min a.1 b.1, max a.2 b.2)) m)

/-- Smallest and largest radius of a mesh; `volumes` has the volumes of the elements on each processor. -/
noncomputable def meshRadii (volumes : List (List ℝ)) : Outcome (ℝ × ℝ) := reduce (volumes.map onProcessor)

/-- The sizes of a discretization: smallest and largest radius and the largest dimension. -/
structure Size where
  min : ℝ
  max : ℝ
  dimension : ℝ

/-- A box.
Models src/io/discretization/Peridigm_PdQuickGridDiscretization.cpp:182-184. -/
noncomputable def boxSize (lx ly lz : ℝ) (nx ny nz : Nat) : Outcome Size :=
  if nx = 0 ∨ ny = 0 ∨ nz = 0 then .ub
  else
    let r := (0.238732414637843 * (lx / nx) * (ly / ny) * (lz / nz)) ^ (0.33333333333333333 : ℝ)
    .ok ⟨r, r, Real.sqrt ((lx / nx) * (lx / nx) + (ly / ny) * (ly / ny) + (lz / nz) * (lz / nz))⟩

/-- A cylinder; two of the three assignments are commented out, so the values of the constructor stay.
Models src/io/discretization/Peridigm_PdQuickGridDiscretization.cpp:61-63, 223-225. -/
noncomputable def cylinderSize (cellSize : ℝ) : Size := ⟨10 ^ 50, cellSize, 0⟩

/-- The length by which finite differences displace a point, for a material with or without the parameter.
Models src/core/Peridigm.cpp:372-374, 423-424. -/
noncomputable def probeLength (given : Option ℝ) (minElementRadius : ℝ) : ℝ :=
  given.getD (Setup.defaultProbe minElementRadius)

/-- `checkContactSearchRadius`: whether the warning is printed.
Models src/core/Peridigm.cpp:794-808. -/
noncomputable def checkSearchRadius (given : Option ℝ) (maxElementRadius : ℝ) : Outcome Bool :=
  match given with
  | none => .fail .invalidArgument
  | some r => if maxElementRadius = 0 then .ub else .ok (decide (10 ≤ r / maxElementRadius))

end Verif.Sizes
