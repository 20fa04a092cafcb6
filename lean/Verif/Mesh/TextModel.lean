import Verif.Common.Outcome
import Mathlib.Data.List.Sort
import Verif.Mech.Model
import Mathlib.Algebra.Order.Floor.Defs
import Mathlib.Algebra.Order.Floor.Ring
import Mathlib.Data.Real.Archimedean

/-!
# Model of reading a mesh from a text file

`TextFileDiscretization::getDecomp`, /repo/src/io/discretization/Peridigm_TextFileDiscretization.cpp:127-249.
How the library reads a number from a text is a parameter (`scan`): given the rest of a line it returns a number
and what comes after it, or nothing.  The rebalancing (223) is a parameter, too; block ids are a function of the
global id afterwards (228-231).  The text is a list of characters; coordinates and volumes are exact.
-/

noncomputable section

namespace Verif.Mesh

open Verif Verif.Mech
open scoped Classical

/-- `trim`: blanks at both ends are removed; a text of blanks only is returned as it is.
Models src/core/Peridigm_Enums.cpp:297-305. -/
def trim (s : List Char) : List Char :=
  if s.all (· = ' ') then s
  else ((s.dropWhile (· = ' ')).reverse.dropWhile (· = ' ')).reverse

/-- The pieces between the line ends, all of which are read: the loop runs while the stream is good, and the last
`getline` reads what follows the last line end.
Models src/io/discretization/Peridigm_TextFileDiscretization.cpp:140-142. -/
def fileLines : List Char → List (List Char)
  | [] => [[]]
  | c :: cs =>
    if c = '\n' then [] :: fileLines cs
    else
      match fileLines cs with
      | [] => [[c]]
      | l :: ls => (c :: l) :: ls

/-- The numbers of a line, up to the first thing that is none (`istream_iterator`).
Models src/io/discretization/Peridigm_TextFileDiscretization.cpp:146-150. -/
def readNumbers (scan : List Char → Option (ℝ × List Char)) : Nat → List Char → List ℝ
  | 0, _ => []
  | fuel + 1, text =>
    match scan text with
    | none => []
    | some (v, rest) => v :: readNumbers scan fuel rest

/-- `static_cast<int>`: the part before the decimal point; undefined if it is no int.
Models src/io/discretization/Peridigm_TextFileDiscretization.cpp:160. -/
def toInt (v : ℝ) : Outcome Int :=
  if -2147483649 < v ∧ v < 2147483648 then .ok (if 0 ≤ v then ⌊v⌋ else ⌈v⌉) else .ub

/-- A point of the file: `coordinates`, `blockIds` and `volumes`. -/
structure TextPoint where
  x : V3
  block : Int
  volume : ℝ

/-- The lines that are ignored.
Models src/io/discretization/Peridigm_TextFileDiscretization.cpp:145 (the first character of an empty string is
the null character). -/
def isComment (s : List Char) : Bool :=
  match s with
  | [] => true
  | c :: _ => c = '#' ∨ c = '/' ∨ c = '*'

/-- One line: nothing or a point.
Models src/io/discretization/Peridigm_TextFileDiscretization.cpp:141-162. -/
def readLine (scan : List Char → Option (ℝ × List Char)) (line : List Char) : Outcome (List TextPoint) :=
  if isComment (trim line) = true then .ok []
  else
    match readNumbers scan (trim line).length (trim line) with
    | [x, y, z, b, v] => do
      let block ← toInt b
      .ok [⟨![x, y, z], block, v⟩]
    | _ => .fail .terminate

/-- All lines.
Models src/io/discretization/Peridigm_TextFileDiscretization.cpp:140-163. -/
def readLines (scan : List Char → Option (ℝ × List Char)) : List (List Char) → Outcome (List TextPoint)
  | [] => .ok []
  | l :: ls => do
    let here ← readLine scan l
    let rest ← readLines scan ls
    .ok (here ++ rest)

/-- The points of the file on the root processor; the `k`-th has the global id `k` (195-198).  `none` is a file that
cannot be opened.
Models src/io/discretization/Peridigm_TextFileDiscretization.cpp:136-168 and 195-206. -/
def readTextMesh (scan : List Char → Option (ℝ × List Char)) (file : Option (List Char)) :
    Outcome (List (Nat × TextPoint)) :=
  match file with
  | none => .fail .terminate
  | some text => do
    let ps ← readLines scan (fileLines text)
    if ps.length < 1 then .fail .terminate
    else .ok ((List.range ps.length).zip ps)

/-! ### Names of blocks -/

/-- `"block_" << id` for an int.
Models src/io/discretization/Peridigm_TextFileDiscretization.cpp:236-237. -/
def intName (b : Int) : String := "block_" ++ toString b

/-- `n / 10^k` rounded to the nearest whole number, ties to even. -/
def roundDiv (n q : Nat) : Nat :=
  if 2 * (n % q) < q then n / q
  else if 2 * (n % q) > q then n / q + 1
  else if n / q % 2 = 0 then n / q else n / q + 1

/-- Six digits as `operator<<(double)` prints them: no zeros at the end, a point after the first digit if there are
more. -/
def mantissa (ds : List Char) : List Char :=
  match (ds.reverse.dropWhile (· = '0')).reverse with
  | [] => []
  | [d] => [d]
  | d :: ds => d :: '.' :: ds

/-- A whole number of at least seven digits as `operator<<(double)` prints it with the default precision of six
digits: rounded, in scientific notation with an exponent of at least two digits. -/
def scientific (n : Nat) : List Char :=
  let p := (Nat.toDigits 10 n).length - 1
  let r := roundDiv n (10 ^ (p - 5))
  let e := if r = 10 ^ 6 then p + 1 else p
  mantissa (Nat.toDigits 10 r) ++ ['e', '+'] ++ (if e < 10 then ['0'] else []) ++ Nat.toDigits 10 e

/-- `"block_" << id` for a double that is a whole number: six digits are printed.
Models src/io/discretization/Peridigm_TextFileDiscretization.cpp:243-244. -/
def doubleName (b : Int) : String :=
  if b.natAbs < 10 ^ 6 then "block_" ++ toString b
  else "block_" ++ (if b < 0 then "-" else "") ++ String.ofList (scientific b.natAbs)

/-- `elementBlocks`: names with ids of points.  An entry is set; a new one comes last (the code keeps them sorted by
name). -/
def setBlock (m : List (String × List Nat)) (name : String) (ids : List Nat) : List (String × List Nat) :=
  if name ∈ m.map Prod.fst then m.map fun e => if e.1 = name then (name, ids) else e
  else m ++ [(name, ids)]

/-- Every block of the file gets an entry.
Models src/io/discretization/Peridigm_TextFileDiscretization.cpp:233-239. -/
def initBlocks : List Int → List (String × List Nat) → List (String × List Nat)
  | [], m => m
  | b :: bs, m => initBlocks bs (setBlock m (intName b) [])

/-- The processor's points are put into the lists.
Models src/io/discretization/Peridigm_TextFileDiscretization.cpp:241-249. -/
def fillBlocks (blockOf : Nat → Int) : List Nat → List (String × List Nat) → Outcome (List (String × List Nat))
  | [], m => .ok m
  | gid :: gids, m =>
    match m.lookup (doubleName (blockOf gid)) with
    | none => .fail .terminate
    | some ids => fillBlocks blockOf gids (setBlock m (doubleName (blockOf gid)) (ids ++ [gid]))

/-- The block of a point after the rebalancing, `rebalancedBlockID`: the import leaves the values with the ids.  (The
value 0 stands for an id that is not in the file; the map of the rebalanced points has no such id.)
Models src/io/discretization/Peridigm_TextFileDiscretization.cpp:208-231. -/
def blockOf (mesh : List (Nat × TextPoint)) (gid : Nat) : Int :=
  match mesh.lookup gid with
  | some p => p.block
  | none => 0

/-- `uniqueGlobalBlockIds`: the block ids of the file, each once and increasing, on every processor (the sum over the
processors leaves them as they are, since the others contribute zeros).
Models src/io/discretization/Peridigm_TextFileDiscretization.cpp:170-193. -/
def uniqueBlocks (mesh : List (Nat × TextPoint)) : List Int :=
  ((mesh.map fun e => e.2.block).insertionSort (· ≤ ·)).dedup

/-- The blocks on one processor, which owns the points `own`.
Models src/io/discretization/Peridigm_TextFileDiscretization.cpp:208-249. -/
def textBlocks (mesh : List (Nat × TextPoint)) (own : List Nat) : Outcome (List (String × List Nat)) :=
  fillBlocks (blockOf mesh) own (initBlocks (uniqueBlocks mesh) [])

end Verif.Mesh
