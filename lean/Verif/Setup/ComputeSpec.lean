import Verif.Setup.ComputeModel

/-!
# Specification vocabulary for C155
-/

namespace Verif.Setup

open Verif

/-- The user asks for the output variable `v`: it is listed in one of the output lists. -/
def Requested (entries : List (String × OutEntry)) (v : String) : Prop :=
  ∃ name names, (name, OutEntry.vars names) ∈ entries ∧ "Output".toList <:+: name.toList ∧ v ∈ names

/-- The name under which a class is looked up. -/
def NameFor (v : String) (key : String) : Prop := underscored v = key

/-- Parameters are given for the class with the name `key`. -/
def HasParams {P : Type} (cps : List (ClassEntry P)) (key : String) (p : P) : Prop :=
  ∃ n, ClassEntry.params n p ∈ cps ∧ NameFor n key

/-- The claim that every requested quantity is computed by one object only. -/
def OneEach : Prop :=
  ∀ (valid : String → Unit → Bool) (entries : List (String × OutEntry)) (objects : List (ComputeObject Unit)),
    computeManager valid entries [] = .ok objects → objects.Nodup

/-- The claim that any output variable can be asked for. -/
def AnyVariable : Prop :=
  ∀ (valid : String → Unit → Bool) (vs : List String),
    ∃ objects, computeManager valid [("Output", .vars vs)] [] = .ok objects

end Verif.Setup
