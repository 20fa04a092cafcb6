import Verif.Mesh.TextModel

/-!
# What a text file of points says
-/

noncomputable section

namespace Verif.Mesh

open Verif Verif.Mech

/-- The numbers at the start of a text: numbers follow until something that is none. -/
inductive Numbers (scan : List Char → Option (ℝ × List Char)) : List Char → List ℝ → Prop
  | stop (text) : scan text = none → Numbers scan text []
  | more (text v rest vs) : scan text = some (v, rest) → rest.length < text.length → Numbers scan rest vs →
      Numbers scan text (v :: vs)

/-- `n` is the part of `v` before the decimal point, an int of 32 bits. -/
def WholePart (v : ℝ) (n : Int) : Prop :=
  |(n : ℝ)| ≤ |v| ∧ |v| < |(n : ℝ)| + 1 ∧ 0 ≤ (n : ℝ) * v ∧ -2147483648 ≤ n ∧ n < 2147483648

/-- The text that starts a comment. -/
def CommentStart (c : Char) : Prop := c = '#' ∨ c = '/' ∨ c = '*'

/-- A text without blanks at its ends. -/
def Tight (s : List Char) : Prop :=
  (∃ c t, s = c :: t ∧ c ≠ ' ') ∧ ∃ u d, s = u ++ [d] ∧ d ≠ ' '

/-- The line says nothing: it is empty, or its first character that is no blank starts a comment. -/
def Silent (line : List Char) : Prop :=
  line = [] ∨ ∃ a c rest, line = List.replicate a ' ' ++ c :: rest ∧ CommentStart c

/-- The line has the numbers `vs` and possibly something else after them, and it is no comment. -/
def Has (scan : List Char → Option (ℝ × List Char)) (line : List Char) (vs : List ℝ) : Prop :=
  ∃ a body b, line = List.replicate a ' ' ++ body ++ List.replicate b ' ' ∧ Tight body ∧
    (∀ c t, body = c :: t → ¬ CommentStart c) ∧ Numbers scan body vs

/-- What a line says: nothing, or a point. -/
def Says (scan : List Char → Option (ℝ × List Char)) (line : List Char) : Option TextPoint → Prop
  | none => Silent line
  | some p => ∃ v, Has scan line [p.x 0, p.x 1, p.x 2, v, p.volume] ∧ WholePart v p.block

end Verif.Mesh
