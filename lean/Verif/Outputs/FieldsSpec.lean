import Verif.Outputs.FieldsModel

/-!
# Fields for output and output schedule: notions used in the statements
-/

noncomputable section

namespace Verif.Outputs

open Verif
open scoped Classical

/-- The records of a file, when the configurations at the positions `P` of the list of times are
written: numbered from 1 in the order of time. -/
def Records (P : Nat → Prop) (ts : List ℝ) (recs : List (Int × ℝ)) : Prop :=
  recs = ((ts.zipIdx.filter fun x => P x.2).map Prod.fst).zipIdx.map fun x => ((x.2 : Int) + 1, x.1)

/-- Steps that the user asks for: the multiples of the frequency from the initial to the final output
step. -/
def Requested (f i j : Int) (s : Nat) : Prop := 0 < f ∧ f ∣ s ∧ i ≤ s ∧ s ≤ j

end Verif.Outputs
