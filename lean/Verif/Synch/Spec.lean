import Verif.Synch.Model
import Verif.Assembly.Spec

/-! Specification vocabulary for C201 to C207. -/

namespace Verif.Synch

open Verif Verif.Assembly

variable {V : Type}

/-- What a user is promised to find in the fields: vector `m` of the solver goes to field `n`.  Force and flux of the
coupled problem go to separate fields; the divergences of the fluxes of heat and concentration belong to problems without
the coupling. -/
inductive CopiedTo : Bool → String → String → Prop
  | displacement (b) : CopiedTo b "u" "Displacement"
  | coordinates (b) : CopiedTo b "y" "Coordinates"
  | velocity (b) : CopiedTo b "v" "Velocity"
  | force (b) : CopiedTo b "force" "Force_Density"
  | contact (b) : CopiedTo b "contactForce" "Contact_Force_Density"
  | external (b) : CopiedTo b "externalForce" "External_Force_Density"
  | temperature (b) : CopiedTo b "temperature" "Temperature"
  | temperatureChange (b) : CopiedTo b "deltaTemperature" "Temperature_Change"
  | concentration (b) : CopiedTo b "concentration" "Concentration"
  | fluxDivergence : CopiedTo false "fluxDivergence" "Flux_Divergence"
  | concentrationDivergence : CopiedTo false "concentrationFluxDivergence" "Concentration_Flux_Divergence"
  | flow : CopiedTo true "fluidFlow" "Flux_Density"
  | pressureChange : CopiedTo true "fluidPressureU" "Fluid_Pressure_U"
  | pressure : CopiedTo true "fluidPressureY" "Fluid_Pressure_Y"
  | pressureRate : CopiedTo true "fluidPressureV" "Fluid_Pressure_V"

/-- Processor `q` holds the value `v` for id `g` in the data of a field, as owned point or as ghost. -/
def Copy (f : BlockField V) (q g : Nat) (v : V) : Prop :=
  ∃ d part, f.data = some d ∧ d[q]? = some part ∧ (g, v) ∈ part

/-- The global ids of a distributed vector, in order of storage. -/
def ids (d : Assembly.Dist V) : List (List Nat) := d.map (·.map Prod.fst)

/-- All the values in the blocks for an id of a field: every copy on every processor holds `v`. -/
def EveryCopy (bs : List (Block V)) (name : String) (s : Field.Step) (g : Nat) (v : V) : Prop :=
  ∀ b ∈ bs, ∀ q w, Copy (b.field name s) q g w → w = v

/-- The importers of all fields of a block find the owners on the map of `global`. -/
def Good (global : Assembly.Dist V) (b : Block V) : Prop := ∀ n s, ValidPick global (b.field n s)

/-- The vectors of a solver are on the map of `global`. -/
def OnMap (global : Assembly.Dist V) (G : Globals V) : Prop := ∀ m src, G m = some src → ids src = ids global

/-- The legs of a list of solvers, one for each record. -/
def legs (ss : List (Solver V)) : List (Leg V) := ss.flatMap fun s => s.first :: s.steps

/-- The work of a leg leaves the data of a field and step alone. -/
def Leg.Keeps (l : Leg V) (name : String) (s : Field.Step) : Prop :=
  ∀ bs, (l.work bs).map (·.field name s) = bs.map (·.field name s)

end Verif.Synch
