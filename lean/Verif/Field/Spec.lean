import Verif.Field.Model

/-!
# Specification of the field registry

What a user of the registry may rely on, phrased only with request sequences.
-/

namespace Verif.Field

/-- The different requests of a sequence, each once, in order of first appearance. -/
def distinctInOrder (rs : List Request) : List Request :=
  rs.foldl (fun seen r => if r ∈ seen then seen else seen ++ [r]) []

/-- Two labels are equal when upper and lower case letters are not distinguished. -/
def SameUpToCase (a b : String) : Prop :=
  a.toList.map Char.toLower = b.toList.map Char.toLower

instance (a b : String) : Decidable (SameUpToCase a b) := by
  unfold SameUpToCase; infer_instance

/-- A request is acceptable after the earlier requests `seen` if it repeats one of them, or if its
label is new even without regard to case. -/
def Acceptable (seen : List Request) (r : Request) : Prop :=
  r ∈ seen ∨ ∀ q ∈ seen, ¬ SameUpToCase r.label q.label

/-- Every request in the sequence is acceptable at the time it is made. -/
def AllAcceptable (rs : List Request) : Prop :=
  ∀ pre r post, rs = pre ++ r :: post → Acceptable pre r

end Verif.Field
