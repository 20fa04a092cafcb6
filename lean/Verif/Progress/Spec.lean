import Mathlib.Data.List.Basic

/-!
# A terminal

What is seen of a stream of characters: a backspace moves the cursor one place to the left, but not beyond the start of
the line, a newline begins a new line, and any other character replaces the one at the cursor, which moves on.
-/

namespace Verif.Progress

/-- The finished lines, the current line, and the place of the cursor in it. -/
structure Terminal where
  above : List (List Char)
  line : List Char
  col : Nat

/-- The terminal after a character. -/
def Terminal.put (t : Terminal) (c : Char) : Terminal :=
  if c = '\x08' then { t with col := t.col - 1 }
  else if c = '\n' then ⟨t.above ++ [t.line], [], 0⟩
  else { t with line := t.line.take t.col ++ c :: t.line.drop (t.col + 1), col := t.col + 1 }

/-- The terminal after a string. -/
def Terminal.write (t : Terminal) (s : List Char) : Terminal := s.foldl Terminal.put t

/-- The cursor is at the end of the current line, whose content is `s`. -/
def Terminal.Shows (t : Terminal) (s : List Char) : Prop := t.line = s ∧ t.col = s.length

end Verif.Progress
