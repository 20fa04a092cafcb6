import Verif.Storage.InterfaceFileLemmas
import Verif.Storage.InterfaceProps

/-!
# C245: the file of the interfaces
-/

noncomputable section

namespace Verif.Storage

open Verif Verif.Mech
open scoped Classical

/-- C245: if the nodes of the interfaces are nodes of the mesh on the processor and every interface has three or four, the
file is written; its elements are the interfaces, quadrilaterals first, and their corners, read through the maps of the file,
are the nodes of the interfaces with their positions.  A block without elements has the type `NULL`. -/
theorem C245_shells (start : Nat) {is : List Interface} {m : MeshNodes} (hn : ∀ i ∈ is, i.count ≤ i.nodes.length)
    (hc : ∀ i ∈ is, i.count = 4 ∨ i.count = 3) (hm : ∀ i ∈ is, ∀ n ∈ i.nodes.take i.count, n ∈ m.gids) :
    ∃ f, shellFile start is m = .ok f ∧
      f.elements.map (fun e => e.map f.corner) =
        (inFile is).map (fun i => (i.nodes.take i.count).map fun n => some (n, m.pos n)) ∧
      f.quads.length = (is.filter fun i => i.count = 4).length ∧
      (f.quadType = "NULL" ↔ f.quads = []) ∧ (f.triType = "NULL" ↔ f.tris = []) := by
  refine ⟨_, shellFile_eq start is m hn hc, ?_, by simp, ?_, ?_⟩
  · simp only [ShellFile.elements, inFile, List.map_append, List.map_map]
    congr 1
    all_goals
      refine List.map_congr_left fun i hi => ?_
      have hi := List.mem_of_mem_filter hi
      simp only [Function.comp_apply, List.map_map]
      refine List.map_congr_left fun n hn => ?_
      exact corner_number rfl rfl (hm i hi n hn)
  · simp only [List.map_eq_nil_iff, List.filter_eq_nil_iff, decide_eq_true_eq]
    by_cases h : ∃ i ∈ is, i.count = 4
    · rw [if_pos h]; obtain ⟨i, hi, h4⟩ := h
      exact ⟨fun h => absurd h (by decide), fun h => absurd h4 (h i hi)⟩
    · rw [if_neg h]; push Not at h; exact ⟨fun _ => h, fun _ => rfl⟩
  · simp only [List.map_eq_nil_iff, List.filter_eq_nil_iff, decide_eq_true_eq]
    by_cases h : ∃ i ∈ is, i.count = 3
    · rw [if_pos h]; obtain ⟨i, hi, h4⟩ := h
      exact ⟨fun h => absurd h (by decide), fun h => absurd h4 (h i hi)⟩
    · rw [if_neg h]; push Not at h; exact ⟨fun _ => h, fun _ => rfl⟩

/-- The interfaces of three wedges, see `wedges_interfaces`. -/
def wedgeInterfaces : List Interface := [⟨0, 1, 3, [3, 4, 5, 0]⟩, ⟨0, 2, 4, [0, 1, 3, 4]⟩]

/-- The nodes of the three wedges. -/
def wedgeNodes : MeshNodes := ⟨List.range 11, fun n => ![(n : ℝ), 0, 0]⟩

example : ∃ f, shellFile 0 wedgeInterfaces wedgeNodes = .ok f ∧
      f.elements.map (fun e => e.map f.corner) =
        (inFile wedgeInterfaces).map (fun i => (i.nodes.take i.count).map fun n => some (n, wedgeNodes.pos n)) ∧
      f.quads.length = (wedgeInterfaces.filter fun i => i.count = 4).length ∧
      (f.quadType = "NULL" ↔ f.quads = []) ∧ (f.triType = "NULL" ↔ f.tris = []) :=
  C245_shells 0 (by simp [wedgeInterfaces]) (by simp [wedgeInterfaces]) (by simp [wedgeInterfaces, wedgeNodes])

/-- C245: the values that an output writes for the elements of the file, in their order, are the apertures of the interfaces
that these elements are, as of the output before. -/
theorem C245_values {s s' : Apertures} {x y y' : Nat → V3} {w w' : Written} {t : Apertures}
    (h : s.write x y = .ok (s', w)) (h' : s'.write x y' = .ok (t, w')) :
    w'.1 ++ w'.2 = (inFile s.interfaces).map (opening x y) := by
  have hb : ∀ n : Nat, (({ s with values := s.interfaces.map (opening x y) } : Apertures).block n) =
      (s.interfaces.filter fun i => i.count = n).map (opening x y) := by
    intro n
    simp only [Apertures.block]
    induction s.interfaces with
    | nil => rfl
    | cons i is ih =>
        simp only [List.map_cons, List.zip_cons_cons]
        by_cases hc : i.count = n
        · rw [List.filter_cons_of_pos (by simpa using hc), List.filter_cons_of_pos (by simpa using hc), List.map_cons,
            List.map_cons, ih]
        · rw [List.filter_cons_of_neg (by simpa using hc), List.filter_cons_of_neg (by simpa using hc), ih]
  unfold Apertures.write at h
  split_ifs at h
  have h := Outcome.ok.inj h
  have hs : { s with values := s.interfaces.map (opening x y) } = s' := (Prod.mk.inj h).1
  subst hs
  unfold Apertures.write at h'
  split_ifs at h'
  have h' := (Prod.mk.inj (Outcome.ok.inj h')).2
  rw [← h', hb, hb, inFile, List.map_append]

example : ∃ s' t w w', (Apertures.new wedgeInterfaces).write (fun _ => 0) (fun n => ![(n : ℝ), 0, 0]) = .ok (s', w) ∧
    s'.write (fun _ => 0) (fun _ => 0) = .ok (t, w') ∧
    w'.1 ++ w'.2 = (inFile wedgeInterfaces).map (opening (fun _ => 0) fun n => ![(n : ℝ), 0, 0]) := by
  have h : ¬ ∃ i ∈ wedgeInterfaces, i.count ≠ 4 ∧ i.count ≠ 3 := by simp [wedgeInterfaces]
  refine ⟨⟨wedgeInterfaces, wedgeInterfaces.map (opening (fun _ => 0) fun n => ![(n : ℝ), 0, 0])⟩,
    ⟨wedgeInterfaces, wedgeInterfaces.map (opening (fun _ => 0) fun _ => 0)⟩, _, _, if_neg h, if_neg h, ?_⟩
  exact C245_values (s := Apertures.new wedgeInterfaces) (y' := fun _ => 0) (if_neg h) (if_neg h)

/-- C245: if no triangle comes before a quadrilateral - in particular in meshes of hexahedra and in meshes of tetrahedra -
the number that the file gives for an element is that of the interface.  Missing for the full claim: the other orders, see
`C245_ids_mixed`. -/
theorem C245_ids_partial {start : Nat} {is : List Interface} {m : MeshNodes} {f : ShellFile}
    (h : shellFile start is m = .ok f) (hn : ∀ i ∈ is, i.count ≤ i.nodes.length)
    (hc : ∀ i ∈ is, i.count = 4 ∨ i.count = 3) (ho : is.Pairwise fun a b => a.count = 3 → b.count = 3) :
    f.elemMap.zip (inFile is) = numbered start is := by
  have hf := Outcome.ok.inj ((shellFile_eq start is m hn hc).symm.trans h)
  subst hf
  have : inFile is = is := by
    clear h hn
    induction is with
    | nil => rfl
    | cons i is ih =>
        have ho' := List.pairwise_cons.1 ho
        have ih := ih (fun j hj => hc j (List.mem_cons_of_mem _ hj)) ho'.2
        rcases hc i (by simp) with h4 | h3
        · rw [inFile, List.filter_cons_of_pos (by simpa using h4), List.filter_cons_of_neg (by simp [h4]),
            List.cons_append]
          exact congrArg _ ih
        · have hall : ∀ j ∈ is, j.count = 3 := fun j hj => ho'.1 j hj h3
          have e1 : (is.filter fun i => i.count = 4) = [] := by
            rw [List.filter_eq_nil_iff]; intro j hj; simp [hall j hj]
          have e2 : (is.filter fun i => i.count = 3) = is := by
            rw [List.filter_eq_self]; intro j hj; simp [hall j hj]
          rw [inFile, List.filter_cons_of_neg (by simp [h3]), List.filter_cons_of_pos (by simpa using h3), e1, e2]
          rfl
  rw [this]
  rfl

example : ∃ f, shellFile 5 wedgeInterfaces.reverse wedgeNodes = .ok f ∧
    f.elemMap.zip (inFile wedgeInterfaces.reverse) = numbered 5 wedgeInterfaces.reverse := by
  have h1 : ∀ i ∈ wedgeInterfaces.reverse, i.count ≤ i.nodes.length := by simp [wedgeInterfaces]
  have h2 : ∀ i ∈ wedgeInterfaces.reverse, i.count = 4 ∨ i.count = 3 := by simp [wedgeInterfaces]
  have h := shellFile_eq 5 wedgeInterfaces.reverse wedgeNodes h1 h2
  exact ⟨_, h, C245_ids_partial h h1 h2 (by simp [wedgeInterfaces])⟩

/-- Three wedges: the second has a triangle in common with the first, the third a quadrilateral. -/
def wedges : List Bonded :=
  [⟨⟨0, [0, 1, 2, 3, 4, 5]⟩, [⟨1, [3, 4, 5, 6, 7, 8]⟩, ⟨2, [0, 1, 9, 3, 4, 10]⟩]⟩,
   ⟨⟨1, [3, 4, 5, 6, 7, 8]⟩, [⟨0, [0, 1, 2, 3, 4, 5]⟩]⟩,
   ⟨⟨2, [0, 1, 9, 3, 4, 10]⟩, [⟨0, [0, 1, 2, 3, 4, 5]⟩]⟩]

theorem wedges_interfaces : constructInterfaces wedges = .ok wedgeInterfaces := by
  simp [wedges, wedgeInterfaces, constructInterfaces, elementInterfaces, pairInterface, sharedFace, otherShared, matching,
    Outcome.ok_bind]

/-- C245 fails in meshes of wedges: the numbers are those of the interfaces in their order, but the elements are sorted.
The interface number 1 of the mesh `wedges` is a triangle, the element number 1 of the file has four corners. -/
theorem C245_ids_mixed : ∃ is f, constructInterfaces wedges = .ok is ∧ shellFile 0 is wedgeNodes = .ok f ∧
    (∃ i, (numbered 0 is).head? = some (1, i) ∧ i.count = 3) ∧
    ∃ e, (f.elemMap.zip f.elements).head? = some (1, e) ∧ e.length = 4 := by
  have h := shellFile_eq 0 wedgeInterfaces wedgeNodes (by simp [wedgeInterfaces]) (by simp [wedgeInterfaces])
  refine ⟨_, _, wedges_interfaces, h, ⟨⟨0, 1, 3, [3, 4, 5, 0]⟩, rfl, rfl⟩, [0, 1, 3, 4].map wedgeNodes.number, ?_, rfl⟩
  simp [ShellFile.elements, wedgeInterfaces, List.range_succ_eq_map]

/-- C245: interfaces with other numbers of nodes end the program. -/
theorem C245_refused {start : Nat} {is : List Interface} {m : MeshNodes} (hn : ∀ i ∈ is, i.count ≤ i.nodes.length)
    (hc : ∃ i ∈ is, i.count ≠ 4 ∧ i.count ≠ 3) : shellFile start is m = .fail .runtimeError := by
  have ht : nodeTable is = .ok ⟨is.map (·.count), is.flatMap fun i => i.nodes.take i.count⟩ := by
    rw [nodeTable, if_neg]
    rintro ⟨i, hi, h⟩
    have := hn i hi
    omega
  rw [shellFile, ht]
  simp only [Outcome.ok_bind]
  rw [if_pos]
  intro h
  obtain ⟨i, hi, h4, h3⟩ := hc
  rcases (count_both is).1 h i hi with h | h
  · exact h4 h
  · exact h3 h

example : shellFile 0 [⟨0, 1, 5, [0, 1, 2, 3, 4]⟩] wedgeNodes = .fail .runtimeError :=
  C245_refused (by simp) (by simp)

/-- C245: a corner that is not a node of the mesh on the processor is written as 0, which is no node of the file. -/
theorem C245_absent {m : MeshNodes} {f : ShellFile} {n : Nat} (hn : n ∉ m.gids) :
    m.number n = 0 ∧ f.corner (m.number n) = none := by
  rw [MeshNodes.number, if_neg hn]
  exact ⟨rfl, if_pos rfl⟩

example : (11 : Nat) ∉ wedgeNodes.gids := by simp [wedgeNodes]

end Verif.Storage
