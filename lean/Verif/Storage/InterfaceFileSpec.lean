import Verif.Storage.InterfaceFileModel

/-!
# Reading the file of the interfaces

The elements of an Exodus file are those of its blocks, one block after the other, and the numbers in the connectivity are
positions in the lists of nodes, from one on.
-/

noncomputable section

namespace Verif.Storage

open Verif Verif.Mech

/-- The elements of the file. -/
def ShellFile.elements (f : ShellFile) : List (List Nat) := f.quads ++ f.tris

/-- The corners of an element: number (as the map says, less one, which is the global id) and coordinates.  `none` if there is no node of that number. -/
def ShellFile.corner (f : ShellFile) (k : Nat) : Option (Nat × V3) :=
  if k = 0 then none else (f.nodeMap.zip f.coords)[k - 1]?.map fun p => (p.1 - 1, p.2)

/-- The interfaces in the order of the elements of the file: quadrilaterals, then triangles. -/
def inFile (is : List Interface) : List Interface := (is.filter fun i => i.count = 4) ++ is.filter fun i => i.count = 3

/-- The number of the interface with the `i`-th place on the processor. -/
def numbered (start : Nat) (is : List Interface) : List (Nat × Interface) :=
  (List.range is.length).map (fun i => start + i + 1) |>.zip is

end Verif.Storage
