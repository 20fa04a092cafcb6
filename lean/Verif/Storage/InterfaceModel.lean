import Verif.Mech.Model

/-!
# Interfaces between elements and their apertures (model)

Models `ExodusDiscretization::constructInterfaceData`,
src/io/discretization/Peridigm_ExodusDiscretization.cpp:592-681, and `InterfaceData`,
src/core/Peridigm_InterfaceData.cpp, on one processor: all elements are local, so that a local
neighbour number stands for the element with its connectivity.  Maps and connectivity of the Exodus
file are in `InterfaceFileModel`; the conversion of the values to `float` is not modelled.
-/

noncomputable section

namespace Verif.Storage

open Verif Verif.Mech
open scoped Classical

/-- An element of the Exodus mesh: global id and nodes.
Models `exodusMeshElementConnectivity` and `oneDimensionalMap`,
src/io/discretization/Peridigm_ExodusDiscretization.cpp:611-619, 624-632. -/
structure Elem where
  gid : Nat
  nodes : List Nat

/-- An element with its neighbours, in the order of the neighbourhood list.
Models src/io/discretization/Peridigm_ExodusDiscretization.cpp:595-596, 610-624. -/
structure Bonded where
  self : Elem
  neighbors : List Elem

/-- An entry of `leftElements`, `rightElements`, `numNodes` and `interfaceNodesVec`.
Models src/io/discretization/Peridigm_ExodusDiscretization.cpp:604-607. -/
structure Interface where
  left : Nat
  right : Nat
  count : Nat
  nodes : List Nat

/-- The corners of the faces of a hexahedron.
Models src/io/discretization/Peridigm_ExodusDiscretization.cpp:599. -/
def hexFaces : List (List Nat) :=
  [[4, 5, 6, 7], [7, 6, 2, 3], [0, 4, 7, 3], [0, 1, 2, 3], [0, 4, 5, 1], [1, 5, 6, 2]]

/-- The nodes of an element at the given corners.
Models `selfNodeIds[faces[ni][nj]]`,
src/io/discretization/Peridigm_ExodusDiscretization.cpp:639, 646. -/
def corners (nodes : List Nat) (f : List Nat) : List Nat := f.filterMap fun k => nodes[k]?

/-- The matches between the nodes of the first list and those of the second, with repetitions, in
the order of the first.
Models the loops at src/io/discretization/Peridigm_ExodusDiscretization.cpp:637-643, 658-665. -/
def matching (own other : List Nat) : List Nat :=
  own.flatMap fun a => (other.filter fun b => a = b).map fun _ => a

/-- The first face of a hexahedron of which more than two nodes are nodes of the neighbour.  The
test of the ids (line 647) is inside the loop over the faces and does not change; here it is made
before.
Models src/io/discretization/Peridigm_ExodusDiscretization.cpp:634-656. -/
def hexShared (own other : List Nat) : List (List Nat) → Option (Nat × List Nat)
  | [] => none
  | f :: fs =>
      if 2 < (matching (corners own f) other).length then
        some ((matching (corners own f) other).length, corners own f)
      else hexShared own other fs

/-- The nodes an element that is not a hexahedron shares with its neighbour, if there are more than
two.  `foundNodeIds` has four entries; more shared nodes are written past its end.
Models src/io/discretization/Peridigm_ExodusDiscretization.cpp:657-672. -/
def otherShared (own other : List Nat) : Outcome (Option (Nat × List Nat)) :=
  if 4 < (matching own other).length then .ub
  else if 2 < (matching own other).length then
    .ok (some ((matching own other).length,
      matching own other ++ List.replicate (4 - (matching own other).length) 0))
  else .ok none

/-- The face shared with a neighbour.  As many nodes of the neighbour are read as the element
itself has; if it has fewer, the read leaves its part of the connectivity.
Models src/io/discretization/Peridigm_ExodusDiscretization.cpp:627-673. -/
def sharedFace (e n : Elem) : Outcome (Option (Nat × List Nat)) :=
  if n.nodes.length < e.nodes.length then .ub
  else if e.nodes.length = 8 then .ok (hexShared e.nodes (n.nodes.take 8) hexFaces)
  else otherShared e.nodes (n.nodes.take e.nodes.length)

/-- What one neighbour adds.  The condition of lines 647 and 667 reduces to the second alternative.
Models src/io/discretization/Peridigm_ExodusDiscretization.cpp:621-674. -/
def pairInterface (e n : Elem) : Outcome (List Interface) := do
  let s ← sharedFace e n
  match s with
  | none => .ok []
  | some (count, nodes) =>
      if e.gid < n.gid then .ok [{ left := e.gid, right := n.gid, count := count, nodes := nodes }]
      else .ok []

/-- What the neighbours of one element add.
Models src/io/discretization/Peridigm_ExodusDiscretization.cpp:621-674. -/
def elementInterfaces (e : Elem) : List Elem → Outcome (List Interface)
  | [] => .ok []
  | n :: ns => do
      let i ← pairInterface e n
      let is ← elementInterfaces e ns
      .ok (i ++ is)

/-- All interfaces.
Models `ExodusDiscretization::constructInterfaceData`,
src/io/discretization/Peridigm_ExodusDiscretization.cpp:592-676. -/
def constructInterfaces : List Bonded → Outcome (List Interface)
  | [] => .ok []
  | b :: bs => do
      let i ← elementInterfaces b.self b.neighbors
      let is ← constructInterfaces bs
      .ok (i ++ is)

/-! ### Apertures -/

/-- The interface data object: interfaces and the aperture vector.
Models `InterfaceData::Initialize`, src/core/Peridigm_InterfaceData.cpp:54-84. -/
structure Apertures where
  interfaces : List Interface
  values : List ℝ

/-- The object as constructed: apertures are zero.
Models src/core/Peridigm_InterfaceData.cpp:83-84. -/
def Apertures.new (is : List Interface) : Apertures :=
  { interfaces := is, values := is.map fun _ => 0 }

/-- The values written into the block of elements with `n` nodes.
Models src/core/Peridigm_InterfaceData.cpp:294-309. -/
def Apertures.block (s : Apertures) (n : Nat) : List ℝ :=
  ((s.interfaces.zip s.values).filter fun p => p.1.count = n).map fun p => p.2

/-- The change of the distance between the two elements of an interface.
Models src/core/Peridigm_InterfaceData.cpp:348-379. -/
def opening (x y : Nat → V3) (i : Interface) : ℝ :=
  len (y i.right - y i.left) - len (x i.right - x i.left)

/-- What an output puts into the file: the values of the quadrilaterals and of the triangles. -/
abbrev Written := List ℝ × List ℝ

/-- One output: writes the values held, then updates them.  `x` and `y` are the reference and the
current positions by global element id.
Models `InterfaceData::WriteExodusOutput`, src/core/Peridigm_InterfaceData.cpp:275-386. -/
def Apertures.write (s : Apertures) (x y : Nat → V3) : Outcome (Apertures × Written) :=
  if ∃ i ∈ s.interfaces, i.count ≠ 4 ∧ i.count ≠ 3 then .fail .runtimeError
  else .ok ({ s with values := s.interfaces.map (opening x y) }, (s.block 4, s.block 3))

/-- The outputs of a run, with the current positions at each of them.
Models the calls at src/io/Peridigm_OutputManager_ExodusII.cpp:246-248. -/
def Apertures.outputs (s : Apertures) (x : Nat → V3) : List (Nat → V3) → Outcome (List Written)
  | [] => .ok []
  | y :: ys => do
      let r ← s.write x y
      let ws ← Apertures.outputs r.1 x ys
      .ok (r.2 :: ws)

end Verif.Storage
