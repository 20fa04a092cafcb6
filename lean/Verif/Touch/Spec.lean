import Verif.Touch.Model
import Verif.Contact.RebalanceSpec

/-! Specification vocabulary for C193 to C196. -/

noncomputable section

namespace Verif.Touch

open Verif Verif.Mech Verif.Neigh Verif.Contact
open scoped Classical

/-- What does not change in a simulation: the points, the block and volume of each, and its bonds. -/
structure World where
  ids : List Nat
  block : Nat → Nat
  vol : Nat → ℝ
  bonds : Nat → List Nat

/-- Every point once, volumes not negative, bonds between points. -/
structure World.Valid (W : World) : Prop where
  nodup : W.ids.Nodup
  vol : ∀ g, 0 ≤ W.vol g
  bonds : ∀ g ∈ W.ids, ∀ k ∈ W.bonds g, k ∈ W.ids

/-- A distributed vector that holds the value `φ g` of every point `g`, on one processor each. -/
def Carries {V : Type} (ids : List Nat) (φ : Nat → V) (d : Assembly.Dist V) : Prop :=
  d.flatten.Perm (ids.map fun g => (g, φ g))

/-- What a contact pair (`i`, `j`) contributes to the force density of point `g`. -/
def pairTerm (P : Params) (F : Fields) (g i j : Nat) : V3 :=
  (if i = g then F.vol j • law P F i j else 0) - (if j = g then F.vol i • law P F i j else 0)

/-- The contact force density of point `g` if point `i` has the contact neighbors `cn i` and the contact parameters of
block `b` are `P b`: a sum over the points, without processors and blocks. -/
def forceOn (W : World) (P : Nat → Params) (cn : Nat → List Nat) (y v : Nat → V3) (g : Nat) : V3 :=
  (W.ids.map fun i => ((cn i).map fun j => pairTerm (P (W.block i)) ⟨y, v, W.vol⟩ g i j).sum).sum

/-- The parameters of a block in a list of contact blocks. -/
def paramsOf (models : List (Nat × Model)) (b : Nat) : Params :=
  match models.lookup b with
  | some m => m.params
  | none => ⟨0, 0, 0, 0⟩

/-- The contact blocks: each id once, every point's block among them, contact radii not negative. -/
structure ValidModels (W : World) (models : List (Nat × Model)) : Prop where
  nodup : (models.map Prod.fst).Nodup
  block : ∀ g ∈ W.ids, W.block g ∈ models.map Prod.fst
  radius : ∀ x ∈ models, 0 ≤ x.2.params.radius

/-- A processor's lists: bonds and contact neighbors are as they should be, and the overlap ids are the owned ones followed
by others. -/
structure GoodPart (W : World) (cn : Nat → List Nat) (c : Contact.Part) : Prop where
  nodup : c.owned.Nodup
  bonds : HoldsBonds W.bonds c
  contact : HoldsContact cn c
  overlap : ∃ ghosts, c.overlap = c.owned ++ ghosts ∧ c.overlap.Nodup

/-- The processors' lists together: every point is owned once. -/
structure GoodParts (W : World) (cn : Nat → List Nat) (parts : List Contact.Part) : Prop where
  part : ∀ c ∈ parts, GoodPart W cn c
  owned : (parts.flatMap Contact.Part.owned).Perm W.ids

/-- The round of a rebalance when the processors own the points `o`: load balancing keeps every point, the search finds
`search` and only points; data are taken from processors that have them. -/
structure GoodRound (W : World) (search : Nat → List Nat) (o : List (List Nat)) (r : Round) : Prop where
  owned : (r.tgt.flatMap Prod.fst).Perm W.ids
  searched : ∀ x ∈ r.tgt, x.2 = encode (x.1.map search)
  found : ∀ g ∈ W.ids, ∀ k ∈ search g, k ∈ W.ids
  pick1 : ∀ (p : Nat) x, r.tgt[p]? = some x → ∀ g ∈ x.1, ∃ G, o[r.pick1 p g]? = some G ∧ g ∈ G
  pick2 : ∀ (p : Nat) x, r.tgt[p]? = some x → ∀ g ∈ x.1, W.bonds g ≠ [] → ∃ G, o[r.pick2 p g]? = some G ∧ g ∈ G

/-- What the simulation hands over at the start. -/
structure GoodStart (W : World) (parts : List Contact.Part) (M : Mothership) : Prop where
  parts : GoodParts W W.bonds parts
  block : Carries W.ids W.block M.block
  vol : Carries W.ids W.vol M.vol
  y : ∃ y, Carries W.ids y M.y
  v : ∃ v, Carries W.ids v M.v

/-- No two contact neighbors at the same place. -/
def Apart (W : World) (cn : Nat → List Nat) (y : Nat → V3) : Prop :=
  ∀ i ∈ W.ids, ∀ j ∈ cn i, y j ≠ y i

/-- What is true at a step, apart from how it is stored: what a search finds, coordinates, velocities, and the time. -/
structure Truth where
  search : Nat → List Nat
  y : Nat → V3
  v : Nat → V3
  time : ℝ

/-- The friction function a user asked for: `φ t` at time `t`, whatever the variable `value` was before. -/
def Asks (m : Model) (φ : ℝ → ℝ) : Prop :=
  match m.source with
  | .fixed => ∀ t, φ t = m.params.friction
  | .timed none => False
  | .timed (some f) => ∀ t w, f t w = some (φ t)

/-- The parameters of a block at time `t` if the friction coefficient of block `b` shall be `φ b t`. -/
def paramsAt (models : List (Nat × Model)) (φ : Nat → ℝ → ℝ) (t : ℝ) (b : Nat) : Params :=
  { paramsOf models b with friction := φ b t }

/-- The contact neighbors used at step `n`: those of the step's search if a search is due, else those before. -/
def neighborsAtStep (W : World) (freq : Int) (n : Nat) (search before : Nat → List Nat) : Nat → List Nat :=
  if freq ∣ (n : Int) then unbonded W.bonds search else before

/-- The force densities on the elements of a vector. -/
def forcesOn (W : World) (P : Nat → Params) (cn : Nat → List Nat) (y v : Nat → V3) (target : Assembly.Dist V3) :
    Assembly.Dist V3 :=
  target.map fun part => part.map fun e => (e.1, forceOn W P cn y v e.1)

/-- The contact forces that should come out from step `n` on. -/
def expected (W : World) (freq : Int) (P : ℝ → Nat → Params) (target : Assembly.Dist V3) :
    Nat → (Nat → List Nat) → List Truth → List (Assembly.Dist V3)
  | _, _, [] => []
  | n, cn, t :: ts =>
    forcesOn W (P t.time) (neighborsAtStep W freq n t.search cn) t.y t.v target ::
      expected W freq P target (n + 1) (neighborsAtStep W freq n t.search cn) ts

/-- The owned points after step `n`. -/
def ownersAfter (freq : Int) (n : Nat) (r : Round) (o : List (List Nat)) : List (List Nat) :=
  if freq ∣ (n : Int) then r.tgt.map Prod.fst else o

/-- The steps from `n` on supply what is true; every decomposition is allowed. -/
def GoodSteps (W : World) (freq : Int) : Nat → List (List Nat) → List StepInput → List Truth → Prop
  | _, _, [], [] => True
  | n, o, x :: xs, t :: ts =>
    (freq ∣ (n : Int) → GoodRound W t.search o x.round) ∧ Carries W.ids t.y x.y ∧ Carries W.ids t.v x.v ∧
      x.timeCurrent = t.time ∧ GoodSteps W freq (n + 1) (ownersAfter freq n x.round o) xs ts
  | _, _, _, _ => False

/-- At every step no two contact neighbors are at the same place. -/
def AllApart (W : World) (freq : Int) : Nat → (Nat → List Nat) → List Truth → Prop
  | _, _, [] => True
  | n, cn, t :: ts =>
    Apart W (neighborsAtStep W freq n t.search cn) t.y ∧
      AllApart W freq (n + 1) (neighborsAtStep W freq n t.search cn) ts

end Verif.Touch
