import Verif.Mech.Model
import Verif.Energy.Model
import Mathlib.LinearAlgebra.Matrix.NonsingularInverse

/-!
# The position-aware linear solid

Models src/materials/pals.cxx, pals.h and src/materials/Peridigm_Pals_Model.cpp.  Bonds, configurations and the scatter
into the force array are those of `Verif.Mech`; the material ignores the damage and the temperature of a configuration,
as the code does.  Numbers are exact reals; a division by zero is `.ub`.  The loops over the neighbors of a point are folds
over its bonds; the arrays for the owned points are given point by point.
-/

noncomputable section

namespace Verif.Pals

open Verif Verif.Neigh Verif.Mech
open scoped Classical Matrix

/-- `dilatation_influence::eval`, src/materials/pals.h:43-49. -/
def dilEval (xi : V3) (w : Fin 6 → ℝ) : ℝ :=
  let a := xi 0
  let b := xi 1
  let c := xi 2
  w 0 * a * a + w 1 * b * b + w 2 * c * c + 2 * (w 3 * a * b + w 4 * a * c + w 5 * b * c)

/-- `ek` of `deviatoric_influence::eval`, src/materials/pals.h:57, and `epsilon_k`, src/materials/pals.cxx:312.  The callers
see to it that the bond has a length. -/
def devModes (xi : V3) : Fin 6 → ℝ :=
  let a := xi 0
  let b := xi 1
  let c := xi 2
  let r := len xi
  let avg := r / 3
  ![a * a / r - avg, b * b / r - avg, c * c / r - avg, 2 * (a * b) / r, 2 * (a * c) / r, 2 * (b * c) / r]

/-- `deviatoric_influence::eval`, src/materials/pals.h:51-66. -/
def devEval (xi : V3) (w : Fin 6 → ℝ) : ℝ :=
  let ek := devModes xi
  w 0 * ek 0 * ek 0 + w 1 * ek 1 * ek 1 + w 2 * ek 2 * ek 2 + w 3 * ek 3 * ek 3 + w 4 * ek 4 * ek 4 +
    w 5 * ek 5 * ek 5

/-- `e_k`, src/materials/pals.cxx:289. -/
def dilModes (xi : V3) : Fin 6 → ℝ :=
  let a := xi 0
  let b := xi 1
  let c := xi 2
  ![a * a, b * b, c * c, 2 * (a * b), 2 * (a * c), 2 * (b * c)]

/-- Moduli and reference influence functions, src/materials/Peridigm_Pals_Model.cpp:76-91. -/
structure Law where
  K : ℝ
  mu : ℝ
  omega0 : ℝ → ℝ → ℝ
  sigma0 : ℝ → ℝ → ℝ

/-- The matrices and right hand sides of the two linear problems of a point. -/
structure System where
  k : Matrix (Fin 6) (Fin 6) ℝ
  kDev : Matrix (Fin 6) (Fin 6) ℝ
  rhsDil : Fin 6 → ℝ
  rhsDev : Fin 6 → ℝ

/-- What one bond adds, src/materials/pals.cxx:272-344 (`m` and `sum_dev` are not used). -/
def addBond (L : Law) (h : ℝ) (S : System) (b : V3 × ℝ) : System :=
  let e := dilModes b.1
  let eps := devModes b.1
  let r := len b.1
  { k := fun i j => S.k i j + e i * e j * b.2
    kDev := fun i j => S.kDev i j + eps i * eps i * (eps j * eps j) * b.2
    rhsDil := fun i => S.rhsDil i + L.omega0 r h * e i * b.2
    rhsDev := fun i => S.rhsDev i + L.sigma0 r h * eps i * eps i * b.2 }

/-- The right hand sides are finished, src/materials/pals.cxx:351-368. -/
def finishRhs (S : System) : System :=
  { S with
    rhsDil := fun i => (![1, 1, 1, 0, 0, 0] : Fin 6 → ℝ) i - 1 * S.rhsDil i
    rhsDev := fun i => (![2 / 3, 2 / 3, 2 / 3, 2, 2, 2] : Fin 6 → ℝ) i - 1 * S.rhsDev i }

/-- `trace_k`, src/materials/pals.cxx:376-379. -/
def traceOf (k : Matrix (Fin 6) (Fin 6) ℝ) : ℝ := (List.finRange 6).foldl (fun t i => t + k i i) 0

/-- Row and column `i` of a matrix are made those of the identity, src/materials/pals.cxx:390-399. -/
def clear (k : Matrix (Fin 6) (Fin 6) ℝ) (i : Fin 6) : Matrix (Fin 6) (Fin 6) ℝ :=
  fun a b => if a = i ∧ b = i then 1 else if a = i ∨ b = i then 0 else k a b

/-- One turn of the loop that takes out modes no bond has, src/materials/pals.cxx:381-404.  With trace zero the
quotient is a NaN, and the comparison false. -/
def repairStep (trace : ℝ) (S : System) (i : Fin 6) : System :=
  if trace ≠ 0 ∧ S.k i i / trace < 1.0e-15 then
    { k := clear S.k i
      kDev := clear S.kDev i
      rhsDil := Function.update S.rhsDil i 0
      rhsDev := Function.update S.rhsDev i 0 }
  else S

/-- The loop, src/materials/pals.cxx:375-404. -/
def repair (S : System) : System := (List.finRange 6).foldl (repairStep (traceOf S.k)) S

/-- `solve_linear_problem`, src/materials/pals.cxx:144-169: LAPACK's factorisation reports a pivot that is exactly zero, which
in exact arithmetic there is iff the matrix is singular; the code throws then.  (LAPACK takes the matrices column by column; they are
symmetric.) -/
def solve (k : Matrix (Fin 6) (Fin 6) ℝ) (rhs : Fin 6 → ℝ) : Outcome (Fin 6 → ℝ) :=
  if k.det = 0 then .fail .runtimeError else .ok (k⁻¹ *ᵥ rhs)

/-- The system of a point whose bonds are `bs` (vector and volume of the neighbor), src/materials/pals.cxx:235-404. -/
def systemOf (L : Law) (h : ℝ) (bs : List (V3 × ℝ)) : System :=
  repair (finishRhs (bs.foldl (addBond L h) ⟨0, 0, 0, 0⟩))

/-- `compute_lagrange_multipliers_point`, src/materials/pals.cxx:212-451, without the constants, which are one
(lines 448-449). -/
def multipliersOf (L : Law) (h : ℝ) (bs : List (V3 × ℝ)) : Outcome ((Fin 6 → ℝ) × (Fin 6 → ℝ)) :=
  if ∃ b ∈ bs, len b.1 = 0 then .ub
  else
    let S := systemOf L h bs
    match solve S.k S.rhsDil with
    | .ok w =>
      match solve S.kDev S.rhsDev with
      | .ok t => .ok (w, t)
      | .fail e => .fail e
      | .ub => .ub
    | .fail e => .fail e
    | .ub => .ub

/-- What `initialize` stores: multipliers, constants and the weighted volume. -/
structure Setup where
  lam : Nat → Fin 6 → ℝ
  tau : Nat → Fin 6 → ℝ
  oc : Nat → ℝ
  sc : Nat → ℝ
  m : Nat → ℝ

/-- A bond in the reference configuration, src/materials/pals.cxx:277. -/
def xi (C : Config) (b : Bond) : V3 := C.x b.j - C.x b.i

/-- The loop of `compute_lagrange_multipliers` over the points, src/materials/pals.cxx:187-206. -/
def multipliersLoop (L : Law) (C : Config) (bonds : List Bond) : List Nat → Setup → Outcome Setup
  | [], S => .ok S
  | p :: ps, S =>
    match multipliersOf L C.horizon ((bonds.filter fun b => b.i = p).map fun b => (xi C b, C.v b.j)) with
    | .ok (w, t) =>
      multipliersLoop L C bonds ps
        { S with
          lam := Function.update S.lam p w
          tau := Function.update S.tau p t
          oc := Function.update S.oc p 1
          sc := Function.update S.sc p 1 }
    | .fail e => .fail e
    | .ub => .ub

/-- `OMEGA(bond,horizon)`, src/materials/pals.h:68-82 and src/materials/pals.cxx:718. -/
def omega (L : Law) (C : Config) (S : Setup) (b : Bond) : ℝ :=
  S.oc b.i * (L.omega0 (len (xi C b)) C.horizon + dilEval (xi C b) (S.lam b.i))

/-- `SIGMA(bond,horizon)`, src/materials/pals.h:68-82 and src/materials/pals.cxx:719. -/
def sigma (L : Law) (C : Config) (S : Setup) (b : Bond) : ℝ :=
  S.sc b.i * (L.sigma0 (len (xi C b)) C.horizon + devEval (xi C b) (S.tau b.i))

/-- `computeWeightedVolume`, src/materials/pals.cxx:563-609. -/
def weightedVolume (L : Law) (C : Config) (S : Setup) (bonds : List Bond) (n : Nat) : Nat → ℝ := fun p =>
  if p < n then
    (bonds.filter fun b => b.i = p).foldl (fun m b => m + sigma L C S b * (C.zeta b * C.zeta b) * C.v b.j) 0
  else S.m p

/-- `Pals_Model::initialize`, src/materials/Peridigm_Pals_Model.cpp:140-231.  `compute_lagrange_multipliers` reads the first entry of
the neighborhood list before its loop (src/materials/pals.cxx:189), also if there are no points.  In the weighted volume the
squared length is `a*a+b*b+c*c`; here it is the square of its root. -/
def prepare (L : Law) (C : Config) (n : Nat) (l : List Nat) (S : Setup) : Outcome Setup :=
  match readAt l 0 with
  | .ok _ =>
    match visitedBonds n l with
    | .ok bonds =>
      match multipliersLoop L C bonds (List.range n) S with
      | .ok S' => .ok { S' with m := weightedVolume L C S' bonds n }
      | .fail e => .fail e
      | .ub => .ub
    | .fail e => .fail e
    | .ub => .ub
  | .fail e => .fail e
  | .ub => .ub

/-- `e`, src/materials/pals.cxx:715 and 825. -/
def elong (C : Config) (b : Bond) : ℝ := C.dY b - C.zeta b

/-- The dilatation of `computeDilatationAndPalsPressure`, src/materials/pals.cxx:660-731. -/
def dilatationOf (L : Law) (C : Config) (S : Setup) (bonds : List Bond) (n : Nat) (th : Nat → ℝ) : Nat → ℝ := fun p =>
  if p < n then
    (bonds.filter fun b => b.i = p).foldl (fun t b => t + omega L C S b * C.zeta b * elong C b * C.v b.j) 0
  else th p

/-- The pressure of `computeDilatationAndPalsPressure`, src/materials/pals.cxx:660-731. -/
def pressureOf (L : Law) (C : Config) (S : Setup) (theta : Nat → ℝ) (bonds : List Bond) (p : Nat) : ℝ :=
  (bonds.filter fun b => b.i = p).foldl
      (fun q b => q + -(2 * L.mu * (sigma L C S b * C.zeta b) / 3) * elong C b * C.v b.j) 0 +
    (L.K + 2 * L.mu * S.m p / 9) * theta p

/-- Pair force of `computeInternalForcePals`, src/materials/pals.cxx:807-838. -/
def pairForce (L : Law) (C : Config) (S : Setup) (theta press : Nat → ℝ) (b : Bond) : Outcome V3 :=
  let eps := elong C b - theta b.i * C.zeta b / 3
  along C b (press b.i * omega L C S b * C.zeta b + 2 * L.mu * sigma L C S b * eps)

/-- `Pals_Model::computeForce`, src/materials/Peridigm_Pals_Model.cpp:234-318: the force is zeroed, then dilatation, pressure and
force are computed.  A bond without length makes `SIGMA` divide by zero. -/
def material (L : Law) (C : Config) (S : Setup) (n : Nat) (l : List Nat) (th : Nat → ℝ) :
    Outcome ((Nat → ℝ) × (Nat → V3)) :=
  match visitedBonds n l with
  | .ok bonds =>
    if ∃ b ∈ bonds, C.zeta b = 0 then .ub
    else
      let theta := dilatationOf L C S bonds n th
      let press := pressureOf L C S theta bonds
      match scatter (selfVol C) (nbrVol C) (pairForce L C S theta press) bonds 0 with
      | .ok F => .ok (theta, F)
      | .fail e => .fail e
      | .ub => .ub
  | .fail e => .fail e
  | .ub => .ub

/-- `Pals_Model::computeStoredElasticEnergyDensity`, src/materials/Peridigm_Pals_Model.cpp:320-392; `theta` is the dilatation of
the last force evaluation. -/
def density (L : Law) (C : Config) (S : Setup) (theta : Nat → ℝ) (bonds : List Bond) (p : Nat) : ℝ :=
  let sum := (bonds.filter fun b => b.i = p).foldl (fun s b =>
    let eps := elong C b - C.zeta b * theta p / 3
    s + sigma L C S b * eps * eps * C.v b.j) 0
  0.5 * L.K * theta p * theta p + L.mu * sum

/-- `Compute_Stored_Elastic_Energy::compute` for one block of this material: density times volume. -/
def storedEnergy (L : Law) (C : Config) (S : Setup) (theta : Nat → ℝ) (n : Nat) (l : List Nat) (U : Nat → ℝ) :
    Outcome (Nat → ℝ) :=
  match visitedBonds n l with
  | .ok bonds =>
    if ∃ b ∈ bonds, C.zeta b = 0 then .ub
    else .ok (Energy.timesVolume n (density L C S theta bonds) C.v U)
  | .fail e => .fail e
  | .ub => .ub

end Verif.Pals
