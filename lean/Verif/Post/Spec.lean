import Verif.Post.Model
import Verif.Correspondence.Spec
import Mathlib.MeasureTheory.Integral.IntervalIntegral.Basic

/-!
# Post-processing: notions used in the statements
-/

noncomputable section

namespace Verif.Post

open Verif Verif.Neigh Verif.Mech Verif.Tensor Verif.Correspondence

/-- A block whose neighbor list encodes `nbs`. -/
def GradBlock.Has (b : GradBlock) (nbs : List (List Nat)) : Prop :=
  b.numPoints = nbs.length ∧ b.list = encode nbs

/-- Every point of a block has an invertible shape tensor. -/
def GradBlock.Regular (b : GradBlock) : Prop :=
  ∃ nbs, b.Has nbs ∧ ∀ p ns, nbs[p]? = some ns → (shapeOf b.body p ns).det ≠ 0

/-- Some point of a block has a singular shape tensor. -/
def GradBlock.Singular (b : GradBlock) : Prop :=
  ∃ nbs, b.Has nbs ∧ ∃ p ns, nbs[p]? = some ns ∧ (shapeOf b.body p ns).det = 0

/-- The eight corners of a box. -/
def corners (a b : V3) : List V3 :=
  [![a 0, a 1, a 2], ![b 0, a 1, a 2], ![b 0, b 1, a 2], ![a 0, b 1, a 2],
   ![a 0, a 1, b 2], ![b 0, a 1, b 2], ![b 0, b 1, b 2], ![a 0, b 1, b 2]]

/-- The nodes are the corners of the box from `a` to `b`, in whatever order; the numbers are doubles. -/
def IsBox (ns : List V3) (a b : V3) : Prop :=
  ns.Perm (corners a b) ∧ ∀ c, a c ≤ b c ∧ |a c| ≤ dblMax ∧ |b c| ≤ dblMax

/-- The squared difference between the displacement `(s², 0, 0)` and the constant `u`, integrated over a box. -/
def errorIntegral (u a b : V3) : ℝ :=
  ∫ s in (a 0)..(b 0), ∫ _ in (a 1)..(b 1), ∫ _ in (a 2)..(b 2), ((u 0 - s ^ 2) ^ 2 + u 1 ^ 2 + u 2 ^ 2)

/-! ### Reading a file of bonds -/

/-- `n` points. -/
def readPoints : Nat → List Tok → Option (List V3 × List Tok)
  | 0, l => some ([], l)
  | n + 1, .num a :: .num b :: .num c :: l => (readPoints n l).map fun r => (![a, b, c] :: r.1, r.2)
  | _ + 1, _ => none

/-- `n` cells with two corners each. -/
def readCells : Nat → List Tok → Option (List (Nat × Nat) × List Tok)
  | 0, l => some ([], l)
  | n + 1, .int 2 :: .int a :: .int b :: l => (readCells n l).map fun r => ((a, b) :: r.1, r.2)
  | _ + 1, _ => none

/-- `n` types, all of them line (3), and then the file ends. -/
def readTypes : Nat → List Tok → Option Unit
  | 0, [] => some ()
  | n + 1, .int 3 :: l => readTypes n l
  | _, _ => none

/-- A legacy VTK file with an unstructured grid of lines: points and cells. -/
def readVTK : List Tok → Option (List V3 × List (Nat × Nat))
  | .word "# vtk DataFile Version 3.0" :: .word _ :: .word "ASCII" :: .word "DATASET" ::
      .word "UNSTRUCTURED_GRID" :: .word "POINTS" :: .int n :: .word "float" :: l =>
    match readPoints n l with
    | some (ps, .word "CELLS" :: .int c :: .int s :: l) =>
      if s = 3 * c then
        match readCells c l with
        | some (cs, .word "CELL_TYPES" :: .int t :: l) =>
          if t = c ∧ (readTypes t l).isSome then some (ps, cs) else none
        | _ => none
      else none
    | _ => none
  | _ => none

/-- The segments shown for a grid: the two ends of each cell; nothing if a cell refers to a point that is not there. -/
def segments (ps : List V3) : List (Nat × Nat) → Option (List (V3 × V3))
  | [] => some []
  | (a, b) :: cs =>
    match ps[a]?, ps[b]?, segments ps cs with
    | some x, some y, some l => some ((x, y) :: l)
    | _, _, _ => none

/-- The bonds of a block, as pairs of global ids: each owned point with each of its neighbors, in order. -/
def pairsOf (ids : List Int) (nbs : List (List Nat)) : List (Int × Int) :=
  (List.range nbs.length).flatMap fun p => (nbs.getD p []).map fun q => (gid ids p, gid ids q)

/-- A block with the neighbor lists `nbs`, all of whose ids are those of points of the overlap map, and whose coordinates
are those that `X` assigns to the global ids. -/
def VisBlock.Sound (b : VisBlock) (nbs : List (List Nat)) (X : Int → V3) : Prop :=
  b.numOwned = nbs.length ∧ b.list = encode nbs ∧ nbs.length ≤ b.ids.length ∧
  (∀ ns ∈ nbs, ∀ q ∈ ns, q < b.ids.length) ∧ ∀ i g, b.ids[i]? = some g → b.x i = X g

end Verif.Post
