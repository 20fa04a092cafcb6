import Verif.BC.Model

/-!
# Boundary conditions: vocabulary of the properties
-/

namespace Verif.BC

open Verif

/-- Definition `d` is about node `g` and direction `k`: its node set contains the node. -/
def Covers (sets : NodeSets) (d : Definition) (g k : Nat) : Prop :=
  (d.coord : Nat) = k ∧ ∃ nodes, sets d.nodeSet = some nodes ∧ g ∈ nodes

/-- The unknown a kinematic condition takes out of the system. -/
def unknownOf : BCType → Option Dof.Unknown
  | .prescribedDisplacement => some .displacement
  | .prescribedFluidPressure => some .pressure
  | .prescribedTemperature => some .temperature
  | .thermalFlux => some .temperature
  | _ => none

/-- Component `k` of unknown `q` of node `g` is constrained by one of the conditions `cs`. -/
def Constrained (m : Dof.Manager) (sets : NodeSets) (cs : List Condition) (g : Nat)
    (q : Dof.Unknown) (k : Nat) : Prop :=
  m.active q = true ∧ ∃ c ∈ cs, unknownOf c.type = some q ∧ c.coord = k ∧
    ∃ nodes, sets c.nodeSet = some nodes ∧ g ∈ nodes

/-- Every kinematic condition on an active unknown names an existing node set. -/
def SetsFound (m : Dof.Manager) (sets : NodeSets) (cs : List Condition) : Prop :=
  ∀ c ∈ cs, ∀ q, unknownOf c.type = some q → m.active q = true → ∃ nodes, sets c.nodeSet = some nodes

/-- Conditions address components their unknown has. -/
def CoordsOk (cs : List Condition) : Prop :=
  ∀ c ∈ cs, ∀ q, unknownOf c.type = some q → c.coord < Dof.width q

/-- The matrix row of a constrained degree of freedom. -/
def ConstrainedRow (m : Dof.Manager) (sets : NodeSets) (cs : List Condition) (r : Nat) : Prop :=
  ∃ g q k, Constrained m sets cs g q k ∧ r = Dof.row m g q k

/-- Entries exist only in the rows and columns of the processor's maps. -/
def RankMatrix.WF (A : RankMatrix) : Prop :=
  ∀ r c a, A.entry r c = some a → r ∈ A.rows ∧ c ∈ A.cols

/-- Row `r` of the product with `x`; an absent entry is a zero of the matrix. -/
noncomputable def RankMatrix.rowTimes (A : RankMatrix) (r : Nat) (x : Nat → ℝ) : ℝ :=
  (A.cols.map fun c => (A.entry r c).getD 0 * x c).sum

end Verif.BC
