/-!
# Degrees of freedom manager (model)

Models src/core/Peridigm_DegreesOfFreedomManager.{hpp,cpp}: the singleton that assigns to each
active unknown of a node a range of slots, and the row numbering of the tangent matrix that is
derived from it.
-/

namespace Verif.Dof

/-- The four unknowns, in the order in which `initialize` handles them.
Models src/core/Peridigm_DegreesOfFreedomManager.cpp:22-41. -/
inductive Unknown where
  | displacement
  | temperature
  | concentration
  | pressure
deriving DecidableEq, Repr

/-- The solver parameters `initialize` reads, `none` standing for an absent parameter.
Models src/core/Peridigm_DegreesOfFreedomManager.cpp:17-20. -/
structure Params where
  displacement : Option Bool := none
  temperature : Option Bool := none
  concentration : Option Bool := none
  pressure : Option Bool := none

/-- The members of the singleton.
Models src/core/Peridigm_DegreesOfFreedomManager.hpp:117-130 (the `verbose_` flag only guards
printing and is left out). -/
structure Manager where
  active : Unknown → Bool
  number : Unknown → Nat
  total : Nat
  offset : Unknown → Nat

/-- The private constructor.
Models src/core/Peridigm_DegreesOfFreedomManager.hpp:99-107. -/
def fresh : Manager where
  active := fun q => match q with | .displacement => true | _ => false
  number := fun _ => 0
  total := 0
  offset := fun _ => 0

/-- The parameter values with their defaults.
Models src/core/Peridigm_DegreesOfFreedomManager.cpp:17-20. -/
def flag (p : Params) : Unknown → Bool
  | .displacement => p.displacement.getD true
  | .temperature => p.temperature.getD false
  | .concentration => p.concentration.getD false
  | .pressure => p.pressure.getD false

/-- Number of components of each unknown.
Models src/core/Peridigm_DegreesOfFreedomManager.cpp:24-25, 29-30, 34-35, 39-40. -/
def width : Unknown → Nat
  | .displacement => 3
  | .temperature => 1
  | .concentration => 1
  | .pressure => 1

/-- One of the four `if` statements.
Models src/core/Peridigm_DegreesOfFreedomManager.cpp:22-26 (and 27-31, 32-36, 37-41). -/
def assign (m : Manager) (q : Unknown) : Manager :=
  if m.active q then
    { m with
      offset := fun r => if r = q then m.total else m.offset r
      number := fun r => if r = q then width q else m.number r
      total := m.total + width q }
  else m

/-- `DegreesOfFreedomManager::initialize`.
Models src/core/Peridigm_DegreesOfFreedomManager.cpp:11-42. -/
def setup (m : Manager) (p : Params) : Manager :=
  assign (assign (assign (assign { m with active := flag p } .displacement)
    .temperature) .concentration) .pressure

/-- The number of a matrix row of unknown `q`, component `k`, of node `g`.
Models src/core/Peridigm.cpp:4033 with the offsets used at
src/core/Peridigm_BoundaryAndInitialConditionManager.cpp:473. -/
def row (m : Manager) (g : Nat) (q : Unknown) (k : Nat) : Nat :=
  m.total * g + m.offset q + k

end Verif.Dof
