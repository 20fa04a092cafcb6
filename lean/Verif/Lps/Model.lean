import Verif.Mech.Model

/-!
# The linear peridynamic solid

Models src/materials/Peridigm_LinearLPSPVMaterial.cpp with the functions it calls, `computeAndStoreInfluenceFunctionValues`
(src/materials/material_utilities.cxx) and `computeWeightedVolumePV` (src/materials/elastic_pv.cxx).  The functions of
src/materials/linear_lps_pv.cxx, which nothing calls, are `lpsDilatation` and `lpsForce` in `Verif.Mech`.

Numbers are exact reals; a division by zero is `.ub`.  The loops over the neighbors of a point are folds over its bonds.
The weights of the improved quadrature come from an external library; here they are arbitrary numbers.
-/

noncomputable section

namespace Verif.Lps

open Verif Verif.Neigh Verif.Mech
open scoped Classical

/-- Which optional parts Peridigm was compiled with (`PERIDIGM_PV`, `PERIDIGM_IMPROVED_QUADRATURE`). -/
structure Build where
  partialVolume : Bool
  quadrature : Bool

/-- What the parameter list asks for. -/
structure Request where
  partialVolume : Bool
  quadrature : Bool

/-- Constructor, src/materials/Peridigm_LinearLPSPVMaterial.cpp:62-126: the three tests at its end. -/
def construct (B : Build) (R : Request) : Outcome Request :=
  if B.partialVolume = false ∧ R.partialVolume = true then .fail .runtimeError
  else if B.quadrature = false ∧ R.quadrature = true then .fail .runtimeError
  else if R.partialVolume = true ∧ R.quadrature = true then .fail .runtimeError
  else .ok R

/-- The numbers with which neighbors are weighted: volumes of cells, partial volumes (of the point and the neighbor, for every
bond), or the weights of the improved quadrature. -/
inductive Weights
  | cells
  | partials (self nbr : Nat → ℝ)
  | quadrature (w : Nat → ℝ)

/-- `selfVolume` and `neighborVolume`, src/materials/Peridigm_LinearLPSPVMaterial.cpp:163-169: null unless partial volumes are used. -/
def volumes : Weights → PartialVolumes
  | .partials s n => some (s, n)
  | _ => none

/-- `neighborWeight`, src/materials/Peridigm_LinearLPSPVMaterial.cpp:270-278 and 335-343. -/
def weight (C : Config) (W : Weights) (b : Bond) : ℝ :=
  match W with
  | .partials _ n => n b.b
  | .quadrature w => w b.b
  | .cells => C.v b.j

/-- What `initialize` stores: influence values of the bonds and weighted volumes of the points. -/
structure Stored where
  infl : Nat → ℝ
  m : Nat → ℝ

/-- `computeAndStoreInfluenceFunctionValues`, src/materials/material_utilities.cxx:55-83.  The distance is taken from
the point minus the neighbor. -/
def storeInfluence (C : Config) (bonds : List Bond) (infl : Nat → ℝ) : Nat → ℝ :=
  bonds.foldl (fun f b => Function.update f b.b (C.omega (len (C.x b.i - C.x b.j)) C.horizon)) infl

/-- `computeWeightedVolumePV` for one point whose bonds are `bs`, src/materials/elastic_pv.cxx:55-102. -/
def weightedVolume (C : Config) (W : Weights) (infl : Nat → ℝ) (bs : List Bond) : ℝ :=
  bs.foldl (fun m b =>
    let d := xd C b
    let zetaSquared := d 0 * d 0 + d 1 * d 1 + d 2 * d 2
    m + infl b.b * zetaSquared * pvNbr C (volumes W) b) 0

/-- `LinearLPSPVMaterial::initialize`, src/materials/Peridigm_LinearLPSPVMaterial.cpp:132-192; `analytic` is the weighted volume the user
has given, if they have.  The loop over the points is src/materials/elastic_pv.cxx:104-160. -/
def prepare (C : Config) (W : Weights) (analytic : Option ℝ) (n : Nat) (l : List Nat) (S : Stored) : Outcome Stored :=
  match visitedBonds n l with
  | .ok bonds =>
    let infl := storeInfluence C bonds S.infl
    match analytic with
    | some a => .ok ⟨infl, fun _ => a⟩
    | none => .ok ⟨infl, fun p =>
        if p < n then weightedVolume C W infl (bonds.filter fun b => b.i = p) else S.m p⟩
  | .fail e => .fail e
  | .ub => .ub

/-- `dotProduct`, src/materials/Peridigm_LinearLPSPVMaterial.cpp:285. -/
def dotProduct (C : Config) (b : Bond) : ℝ := xd C b 0 * ud C b 0 + xd C b 1 * ud C b 1 + xd C b 2 * ud C b 2

/-- The sum over the bonds of a point, src/materials/Peridigm_LinearLPSPVMaterial.cpp:262-288. -/
def dilatationSum (C : Config) (W : Weights) (S : Stored) (bs : List Bond) : ℝ :=
  bs.foldl (fun t b => t + S.infl b.b * (1 - C.damage b.b) * dotProduct C b * weight C W b) 0

/-- `LinearLPSPVMaterial::precompute`, src/materials/Peridigm_LinearLPSPVMaterial.cpp:232-293: the dilatation.  The weighted volume of a
point that has bonds is a denominator (line 290). -/
def precompute (C : Config) (W : Weights) (S : Stored) (n : Nat) (l : List Nat) : Outcome (Nat → ℝ) :=
  match visitedBonds n l with
  | .ok bonds =>
    if ∃ b ∈ bonds, S.m b.i = 0 then .ub
    else .ok fun p =>
      if p < n then
        let bs := bonds.filter fun b => b.i = p
        if bs.length > 0 then dilatationSum C W S bs * (3 / S.m p) else dilatationSum C W S bs
      else 0
  | .fail e => .fail e
  | .ub => .ub

/-- `normZetaSquared`, src/materials/Peridigm_LinearLPSPVMaterial.cpp:349. -/
def normSquared (C : Config) (b : Bond) : ℝ := xd C b 0 * xd C b 0 + xd C b 1 * xd C b 1 + xd C b 2 * xd C b 2

/-- `temp1*zeta[i] + temp2*matVec[i]` with dilatation and weighted volume of the point `p`,
src/materials/Peridigm_LinearLPSPVMaterial.cpp:350-360 and 370-374. -/
def term (C : Config) (K mu : ℝ) (S : Stored) (theta : Nat → ℝ) (b : Bond) (p : Nat) : V3 := fun c =>
  let om := S.infl b.b
  let temp1 := (9 * K - 15 * mu) * om * theta p / (3 * S.m p)
  let temp2 := 15 * mu * om / (S.m p * normSquared C b)
  let z := xd C b
  let u := ud C b
  temp1 * z c + temp2 * (z c * z 0 * u 0 + z c * z 1 * u 1 + z c * z 2 * u 2)

/-- What one bond adds to the forces, src/materials/Peridigm_LinearLPSPVMaterial.cpp:332-391. -/
def bondStep (C : Config) (W : Weights) (K mu : ℝ) (S : Stored) (theta : Nat → ℝ) (b : Bond) (F : Nat → V3) :
    Outcome (Nat → V3) :=
  if S.m b.i = 0 ∨ normSquared C b = 0 then .ub
  else
    let f : V3 := fun c => (1 - C.damage b.b) * term C K mu S theta b b.i c
    match W with
    | .quadrature w =>
      if S.m b.j = 0 then .ub
      else
        let F1 := Function.update F b.i fun c => F b.i c + f c * w b.b
        let g : V3 := fun c => -term C K mu S theta b b.j c
        .ok (Function.update F1 b.i fun c => F1 b.i c - g c * w b.b)
    | .partials s n => .ok (scatterStep (fun b => s b.b) (fun b => n b.b) F b f)
    | .cells => .ok (scatterStep (selfVol C) (nbrVol C) F b f)

/-- The loop over the bonds, src/materials/Peridigm_LinearLPSPVMaterial.cpp:327-393. -/
def forceLoop (C : Config) (W : Weights) (K mu : ℝ) (S : Stored) (theta : Nat → ℝ) :
    List Bond → (Nat → V3) → Outcome (Nat → V3)
  | [], F => .ok F
  | b :: bs, F =>
    match bondStep C W K mu S theta b F with
    | .ok F' => forceLoop C W K mu S theta bs F'
    | .fail e => .fail e
    | .ub => .ub

/-- `LinearLPSPVMaterial::computeForce`, src/materials/Peridigm_LinearLPSPVMaterial.cpp:295-394: the forces are zeroed first. -/
def force (C : Config) (W : Weights) (K mu : ℝ) (S : Stored) (theta : Nat → ℝ) (n : Nat) (l : List Nat) :
    Outcome (Nat → V3) :=
  match visitedBonds n l with
  | .ok bonds => forceLoop C W K mu S theta bonds 0
  | .fail e => .fail e
  | .ub => .ub

/-- One evaluation: `precompute`, then `computeForce` (src/core/Peridigm_ModelEvaluator.cpp:81-118).  The dilatation of
ghosted points, which in between is exchanged between processors, is read only with the improved quadrature; for that `ghost`
says what the exchange makes of the array. -/
def evaluate (C : Config) (W : Weights) (K mu : ℝ) (S : Stored) (n : Nat) (l : List Nat)
    (ghost : (Nat → ℝ) → Nat → ℝ) : Outcome ((Nat → ℝ) × (Nat → V3)) :=
  match precompute C W S n l with
  | .ok th =>
    let theta := fun p => if p < n then th p else ghost th p
    match force C W K mu S theta n l with
    | .ok F => .ok (theta, F)
    | .fail e => .fail e
    | .ub => .ub
  | .fail e => .fail e
  | .ub => .ub

end Verif.Lps
