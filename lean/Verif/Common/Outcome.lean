/-!
# Outcomes of C++ calls

Every modelled function that can stop abnormally returns an `Outcome`.  Three results are kept
apart because the code treats them differently:

* `ok a`      the call returns `a`;
* `fail f`    the call is stopped deliberately by the code (a Teuchos test macro or a `throw`);
* `ub`        the call executes an operation the C++ standard or the Teuchos RCP contract gives no
              meaning to in an optimised build (null `RCP` dereference, index outside a
              `std::vector`, incrementing an `end()` iterator).

`Outcome` is a modelling device; it has no counterpart of its own in /repo.  The macros it stands
for are `TEUCHOS_TEST_FOR_EXCEPTION` (throws), `TEUCHOS_TEST_FOR_TERMINATION` (terminates).
-/

namespace Verif

/-- The deliberate ways in which the modelled code stops.  `terminate` is
`TEUCHOS_TEST_FOR_TERMINATION`; the others are the exception classes handed to
`TEUCHOS_TEST_FOR_EXCEPTION` or to `throw` at the cited places. -/
inductive Fault where
  | terminate
  | rangeError
  | nullReference
  | runtimeError
  | outOfRange
  | domainError
  | invalidArgument
  deriving DecidableEq, Repr

/-- Result of a modelled call, see the module comment. -/
inductive Outcome (α : Type _) where
  | ok (a : α)
  | fail (f : Fault)
  | ub
  deriving DecidableEq, Repr

namespace Outcome

variable {α β γ : Type _}

/-- Sequencing: an abnormal result of the first statement prevents the second. -/
def bind : Outcome α → (α → Outcome β) → Outcome β
  | ok a, k => k a
  | fail f, _ => fail f
  | ub, _ => ub

/-- Post-processing of a normal result. -/
def map (g : α → β) : Outcome α → Outcome β
  | ok a => ok (g a)
  | fail f => fail f
  | ub => ub

instance : Monad Outcome where
  pure := ok
  bind := bind

@[simp] theorem pure_eq (a : α) : (pure a : Outcome α) = ok a := rfl
@[simp] theorem ok_bind (a : α) (k : α → Outcome β) : (ok a >>= k) = k a := rfl
@[simp] theorem fail_bind (f : Fault) (k : α → Outcome β) : (fail f >>= k) = fail f := rfl
@[simp] theorem ub_bind (k : α → Outcome β) : ((ub : Outcome α) >>= k) = ub := rfl
@[simp] theorem ok_bind' (a : α) (k : α → Outcome β) : bind (ok a) k = k a := rfl
@[simp] theorem fail_bind' (f : Fault) (k : α → Outcome β) : bind (fail f) k = fail f := rfl
@[simp] theorem ub_bind' (k : α → Outcome β) : bind (ub : Outcome α) k = ub := rfl

theorem bind_eq_ok {x : Outcome α} {k : α → Outcome β} {b : β} :
    (x >>= k) = ok b ↔ ∃ a, x = ok a ∧ k a = ok b := by
  cases x <;> simp

/-- The call returned normally. -/
def isOk : Outcome α → Bool
  | ok _ => true
  | _ => false

end Outcome
end Verif
