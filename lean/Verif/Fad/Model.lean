import Verif.Tangent.Model
import Verif.Mech.Model

/-!
# Tangents by automatic differentiation (model)

Models `ElasticMaterial::computeAutomaticDifferentiationJacobian`, which the elastic material uses unless the
input says otherwise, with the kernels `computeDilatation` and `computeInternalForceLinearElastic` for the
scalar type `Sacado::Fad::DFad<double>`.

The type `Sacado::Fad::DFad<double>` belongs to a library.  It is modelled as a number with an array of
derivatives on which the operations act by the rules for sum, product, quotient and square root.

Simplifications: exact arithmetic.  `none` stands for an evaluation in which some number is not finite: a
division by zero, or the derivative of the square root at zero.  In the code such a number reaches all
derivatives of the force on the point of the neighborhood.  The optional partial stress is left out; nothing is read from
it.
-/

noncomputable section

namespace Verif.Fad

open Verif Verif.Neigh Verif.Mech Verif.Tangent
open scoped Classical

/-! ### Numbers with derivatives -/

/-- `Sacado::Fad::DFad<double>`: value and derivatives; a number without derivatives has zeros. -/
structure Num where
  val : ℝ
  dx : Nat → ℝ

/-- An independent variable.  Models src/materials/Peridigm_ElasticMaterial.cpp:344-345. -/
def Num.var (i : Nat) (x : ℝ) : Num := ⟨x, fun k => if k = i then 1 else 0⟩

/-- A number that depends on nothing. -/
def Num.const (x : ℝ) : Num := ⟨x, fun _ => 0⟩

instance : Add Num := ⟨fun a b => ⟨a.val + b.val, fun k => a.dx k + b.dx k⟩⟩

instance : Sub Num := ⟨fun a b => ⟨a.val - b.val, fun k => a.dx k - b.dx k⟩⟩

instance : Mul Num := ⟨fun a b => ⟨a.val * b.val, fun k => a.dx k * b.val + a.val * b.dx k⟩⟩

/-- A `double` times a number. -/
def Num.scale (c : ℝ) (a : Num) : Num := ⟨c * a.val, fun k => c * a.dx k⟩

/-- A number minus a `double`. -/
def Num.minus (a : Num) (c : ℝ) : Num := ⟨a.val - c, a.dx⟩

/-- Division. -/
def Num.div (a b : Num) : Option Num :=
  if b.val = 0 then none
  else some ⟨a.val / b.val, fun k => (a.dx k * b.val - a.val * b.dx k) / (b.val * b.val)⟩

/-- Square root. -/
def Num.sqrt (a : Num) : Option Num :=
  if a.val = 0 then none
  else some ⟨Real.sqrt a.val, fun k => a.dx k / (2 * Real.sqrt a.val)⟩

/-- Three numbers. -/
abbrev Num3 := Fin 3 → Num

/-! ### The elastic kernels with these numbers -/

/-- `Y_dx, Y_dy, Y_dz`.  Models src/materials/elastic.cxx:110-112 and
src/materials/material_utilities.cxx:274-276. -/
def bondVector (Y : Nat → Num3) (b : Bond) : Num3 := fun c => Y b.j c - Y b.i c

/-- `dY`.  Models src/materials/elastic.cxx:113 and src/materials/material_utilities.cxx:277-279. -/
def bondLength (Y : Nat → Num3) (b : Bond) : Option Num :=
  let d := bondVector Y b
  (d 0 * d 0 + d 1 * d 1 + d 2 * d 2).sqrt

/-- `e`.  Models src/materials/elastic.cxx:114-116 and src/materials/material_utilities.cxx:280-282. -/
def extension (C : Config) (b : Bond) (dY : Num) : Num :=
  match C.thermal with
  | none => dY.minus (C.zeta b)
  | some (a, dT) => (dY.minus (C.zeta b)).minus (a * dT b.i * C.zeta b)

/-- The loop of `computeDilatation` over the bonds of the one point.
Models src/materials/material_utilities.cxx:264-285. -/
def dilatation (C : Config) (Y : Nat → Num3) : List Bond → Num → Option Num
  | [], th => some th
  | b :: bs, th => do
    let dY ← bondLength Y b
    let e := extension C b dY
    let term := ((e.scale (3 * C.om b * (1 - C.damage b.b) * C.zeta b)).scale (C.v b.j)).scale (1 / C.m b.i)
    if C.m b.i = 0 then none else dilatation C Y bs (th + term)

/-- The pair force of a bond.  Models src/materials/elastic.cxx:99-123. -/
def bondForce (C : Config) (K mu : ℝ) (Y : Nat → Num3) (theta : Num) (b : Bond) : Option Num3 := do
  let dY ← bondLength Y b
  if C.m b.i = 0 then none
  else
    let alpha := 15 * mu / C.m b.i
    let e := extension C b dY
    let c1 := (theta.scale (C.om b)).scale (3 * K / C.m b.i - alpha / 3)
    let t := (c1.scale (C.zeta b) + e.scale ((1 - C.damage b.b) * C.om b * alpha)).scale (1 - C.damage b.b)
    let fx ← (t * bondVector Y b 0).div dY
    let fy ← (t * bondVector Y b 1).div dY
    let fz ← (t * bondVector Y b 2).div dY
    some ![fx, fy, fz]

/-- Adding the pair force at both ends.  Models src/materials/elastic.cxx:125-130. -/
def addForce (C : Config) (F : Nat → Num3) (b : Bond) (f : Num3) : Nat → Num3 :=
  let F1 := Function.update F b.i (fun c => F b.i c + (f c).scale (C.v b.j))
  Function.update F1 b.j (fun c => F1 b.j c - (f c).scale (C.v b.i))

/-- The loop over the bonds.  Models src/materials/elastic.cxx:92-143. -/
def forces (C : Config) (K mu : ℝ) (Y : Nat → Num3) (theta : Num) : List Bond → (Nat → Num3) → Option (Nat → Num3)
  | [], F => some F
  | b :: bs, F => do
    let f ← bondForce C K mu Y theta b
    forces C K mu Y theta bs (addForce C F b f)

/-! ### The neighborhood of one point -/

/-- The material and the data of all points and bonds, by global id; the bonds of a point are numbered in the order
of its neighbors. -/
structure Solid where
  K : ℝ
  mu : ℝ
  horizon : ℝ
  omega : ℝ → ℝ → ℝ
  thermal : Option (ℝ × (Nat → ℝ))
  x : Nat → V3
  v : Nat → ℝ
  m : Nat → ℝ
  damage : Nat → Nat → ℝ

/-- Component of a point in an array with three entries for each point. -/
def comp (y : Nat → ℝ) (i : Nat) : V3 := fun c => y (3 * i + c)

/-- The data of the points `gids` in the temporary data manager.
Models src/materials/Peridigm_ElasticMaterial.cpp:290-309 and 326-339. -/
def Solid.hood (S : Solid) (gids : List Nat) (y : Nat → ℝ) : Config where
  x i := S.x (gids.getD i 0)
  y := comp y
  v i := S.v (gids.getD i 0)
  m i := S.m (gids.getD i 0)
  damage := S.damage (gids.getD 0 0)
  omega := S.omega
  horizon := S.horizon
  thermal := S.thermal.map fun t => (t.1, fun i => t.2 (gids.getD i 0))

/-- `tempNeighborhoodList` for a point with `n` neighbors.
Models src/materials/Peridigm_ElasticMaterial.cpp:281-288. -/
def tempList (n : Nat) : List Nat := n :: (List.range n).map (· + 1)

/-- The force density of the elastic material in the neighborhood of one point, with `double`.
Models src/materials/Peridigm_ElasticMaterial.cpp:141-172 as called from
src/materials/Peridigm_Material.cpp:243, 253. -/
def elasticKernel (S : Solid) : Kernel := fun gids y _ => do
  let r ← elasticMaterial (S.hood gids y) S.K S.mu 1 (tempList (gids.length - 1)) fun _ => 0
  .ok fun k => r.2 (k / 3) ⟨k % 3, Nat.mod_lt _ (by omega)⟩

/-- An evaluation with numbers that carry derivatives, from coordinates to force density. -/
abbrev AdKernel := List Nat → (Nat → ℝ) → Option (Nat → Num)

/-- `y_AD` as it is filled.  Models src/materials/Peridigm_ElasticMaterial.cpp:340-346. -/
def independent (y : Nat → ℝ) (i : Nat) : Num3 := fun c => Num.var (3 * i + c) (y (3 * i + c))

/-- The force density of the elastic material in the neighborhood of one point, with derivatives.
Models src/materials/Peridigm_ElasticMaterial.cpp:347-361. -/
def elasticAd (S : Solid) : AdKernel := fun gids y =>
  let C := S.hood gids y
  match visitedBonds 1 (tempList (gids.length - 1)) with
  | .ok bs => do
    let theta ← dilatation C (independent y) bs (Num.const 0)
    let F ← forces C S.K S.mu (independent y) theta bs fun _ _ => Num.const 0
    some fun k => F (k / 3) ⟨k % 3, Nat.mod_lt _ (by omega)⟩
  | _ => none

/-! ### The tangent -/

/-- The entries that are handed on; reading memory that was never written is undefined. -/
def entries (S : Scratch) (n : Nat) : Outcome (Nat → Nat → ℝ) :=
  if ∀ r < n, ∀ c < n, (S.val r c).isSome then .ok fun r c => (S.val r c).getD 0 else .ub

/-- The derivatives are written to the scratch matrix, times the volume.
Models src/materials/Peridigm_ElasticMaterial.cpp:363-372 (without the test of line 369). -/
def writeAll (n : Nat) (f : Nat → Num) (vol : Nat → ℝ) (S : Scratch) : Outcome Scratch :=
  (List.range n).foldlM (fun S row =>
    (List.range n).foldlM (fun S col => S.write row col ((f row).dx col * vol (row / 3))) S) S

/-- The local matrix of one neighborhood, and the scratch matrix left behind.  A number that is not finite ends
the program.
Models src/materials/Peridigm_ElasticMaterial.cpp:271-372. -/
def adLocal (A : AdKernel) (F : Fields) (gids : List Nat) (S : Scratch) : Outcome (Scratch × (Nat → Nat → ℝ)) := do
  let _ ← bondMap gids
  match A gids (gather 3 gids F.y) with
  | none => .fail .terminate
  | some f => do
    let S1 ← writeAll (3 * gids.length) f (gather 1 gids F.vol) (S.fit (3 * gids.length))
    let L ← entries S1 (3 * gids.length)
    .ok (S1, L)

/-- One pass of the loop over the points.
Models src/materials/Peridigm_ElasticMaterial.cpp:271-382. -/
def adPoint (kind : Kind) (A : AdKernel) (F : Fields) (rows : Nat → Prop) (s : Scratch × Sparse) (gids : List Nat) :
    Outcome (Scratch × Sparse) := do
  let SL ← adLocal A F gids s.1
  let M ← addLocal kind rows (dofIds 3 gids) SL.2 s.2
  .ok (SL.1, M)

/-- `computeAutomaticDifferentiationJacobian` on one processor.
Models src/materials/Peridigm_ElasticMaterial.cpp:258-383. -/
def adOne (kind : Kind) (A : AdKernel) (F : Fields) (S : Scratch) (pr : Proc) (M : Sparse) : Outcome Sparse := do
  let hs ← pr.hoods
  let s ← hs.foldlM (adPoint kind A F (pr.rows 3)) (S, M)
  .ok s.2

/-- The tangent from all processors.
Models src/core/Peridigm_ModelEvaluator.cpp:133-160 and src/core/Peridigm.cpp:4322-4326. -/
def adTangent (kind : Kind) (A : AdKernel) (F : Fields) (S : Scratch) : List Proc → Sparse → Outcome Sparse
  | [], M => .ok M
  | pr :: prs, M => do
    let M1 ← adOne kind A F S pr M
    adTangent kind A F S prs M1

/-- `ElasticMaterial::computeJacobian`; `ad` is the parameter "Apply Automatic Differentiation Jacobian", true
if it is not given.
Models src/materials/Peridigm_ElasticMaterial.cpp:62, 75-76 and 238-255. -/
def elasticTangent (ad : Option Bool) (P : Settings) (kind : Kind) (E : Solid) (Q : FluxKernel) (F : Fields) (S : Scratch)
    (prs : List Proc) (M : Sparse) : Outcome Sparse :=
  if ad.getD true then adTangent kind (elasticAd E) F S prs M
  else assemble P kind (elasticKernel E) Q F S prs M

end Verif.Fad
