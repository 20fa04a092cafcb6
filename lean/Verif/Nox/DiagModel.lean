import Verif.Common.Outcome
import Mathlib.Analysis.Real.Sqrt

/-!
# Diagnostics of the Jacobian (model)

Models `Peridigm::jacobianDiagnostics`, src/core/Peridigm.cpp:1887-1957 (the check for symmetry; the
condition number is left to NOX and not modelled).

* A matrix is the list of the rows of the processor, a row the list of its entries in the order of their
  local column indices.  The norms add up over processors; one processor is modelled.
* `Epetra_RowMatrixTransposer::CreateTranspose` constructs a new matrix and makes the pointer that is
  passed by reference point to it; it does not touch the matrix the pointer pointed to before.
-/

namespace Verif.Nox

open Verif

/-- The rows of an `Epetra_CrsMatrix`: local column indices and values. -/
abbrev Crs := List (List (Nat × ℝ))

/-- `NormFrobenius`. -/
noncomputable def frobenius (A : Crs) : ℝ :=
  Real.sqrt ((A.map fun row => (row.map fun e => e.2 ^ 2).sum).sum)

/-- The entries of one row after the loop over its entries: half of the absolute value of the difference.
Models src/core/Peridigm.cpp:1925-1928. -/
noncomputable def rowDifference : List (Nat × ℝ) → List (Nat × ℝ) → Outcome (List (Nat × ℝ))
  | [], [] => .ok []
  | a :: r, b :: t =>
      if a.1 ≠ b.1 then .fail .terminate
      else do
        let rest ← rowDifference r t
        .ok ((b.1, |(1 / 2) * (a.2 - b.2)|) :: rest)
  | _, _ => .fail .terminate

/-- The loop over the rows; the lengths of the rows are compared before the entries.
Models src/core/Peridigm.cpp:1916-1929. -/
noncomputable def difference : Crs → Crs → Outcome Crs
  | [], [] => .ok []
  | r :: A, t :: B =>
      if r.length ≠ t.length then .fail .terminate
      else do
        let row ← rowDifference r t
        let rest ← difference A B
        .ok (row :: rest)
  | _, _ => .fail .terminate

/-- The two numbers printed for the matrix and what is taken for its transpose.
Models src/core/Peridigm.cpp:1915-1932. -/
noncomputable def report (A transpose : Crs) : Outcome (ℝ × ℝ) := do
  let D ← difference A transpose
  .ok (frobenius D, frobenius A)

/-- Local variables: the matrix `jacobianTranspose` and the matrix `jacobianTransposePtr` points to;
`none` if it is `jacobianTranspose`. -/
structure Locals where
  jacobianTranspose : Crs
  pointee : Option Crs

/-- The copy of the Jacobian and the pointer to it.
Models src/core/Peridigm.cpp:1908-1909. -/
def locals (A : Crs) : Locals := ⟨A, none⟩

/-- `CreateTranspose`; `transposed` is the transpose.
Models src/core/Peridigm.cpp:1910-1913. -/
def createTranspose (transposed : Crs) (l : Locals) : Locals := { l with pointee := some transposed }

/-- `jacobianDiagnostics`: the asymmetric norm and the "symmetric" norm that are printed.
Models src/core/Peridigm.cpp:1902-1932. -/
noncomputable def jacobianDiagnostics (transposed : Crs) (A : Crs) : Outcome (ℝ × ℝ) :=
  report A (createTranspose transposed (locals A)).jacobianTranspose

end Verif.Nox
