import Verif.Storage.InterfaceLemmas
import Verif.Outputs.GlobalLemmas
import Mathlib.Tactic.NormNum

/-!
# C59 and C94: interfaces and their apertures
-/

noncomputable section

namespace Verif.Storage

open Verif Verif.Mech
open scoped Classical

/-! ### Construction -/

/-- C94 for hexahedra: there is one interface for each pair of an element and a neighbour of its with
larger id with which it has a face in common, and none else.  Missing for the full claim: pairs in which
only the element with the larger id has the other as its neighbour, see `C94_one_sided`. -/
theorem C94_hex_partial {mesh : List Bonded} (h : AllHex mesh) (hd : Distinct mesh) :
    ∃ is, constructInterfaces mesh = .ok is ∧ (pairs is).Nodup ∧
      ∀ l r, (l, r) ∈ pairs is ↔ ∃ b ∈ mesh, ∃ n ∈ b.neighbors,
        b.self.gid = l ∧ n.gid = r ∧ l < r ∧ HexFace b.self n := by
  refine pairs_spec hd fun b hb n hn => ?_
  rcases sharedFace_hex (h b hb).1 ((h b hb).2 n hn) with ⟨r, h1, h2, -⟩ | h'
  · exact Or.inl ⟨r, h1, (hexFace_iff _ _).2 h2⟩
  · exact Or.inr ⟨h'.1, fun h => h'.2 ((hexFace_iff _ _).1 h)⟩

/-- C94 for tetrahedra. -/
theorem C94_tet_partial {mesh : List Bonded} (h : AllTet mesh) (hd : Distinct mesh) :
    ∃ is, constructInterfaces mesh = .ok is ∧ (pairs is).Nodup ∧
      ∀ l r, (l, r) ∈ pairs is ↔ ∃ b ∈ mesh, ∃ n ∈ b.neighbors,
        b.self.gid = l ∧ n.gid = r ∧ l < r ∧ TetFace b.self n :=
  pairs_spec hd fun b hb n hn => sharedFace_tet (h b hb).1 ((h b hb).2 n hn)

/-- Two cubes side by side, and a third that touches the second along an edge. -/
def cubeA : Elem := ⟨0, [0, 1, 2, 3, 4, 5, 6, 7]⟩
/-- See `cubeA`. -/
def cubeB : Elem := ⟨1, [1, 8, 9, 2, 5, 10, 11, 6]⟩
/-- See `cubeA`. -/
def cubeC : Elem := ⟨2, [20, 21, 22, 23, 10, 11, 24, 25]⟩

/-- A mesh of the three cubes, each a neighbour of the others. -/
def cubes : List Bonded :=
  [⟨cubeA, [cubeB, cubeC]⟩, ⟨cubeB, [cubeA, cubeC]⟩, ⟨cubeC, [cubeA, cubeB]⟩]

theorem cubes_hex : AllHex cubes := by
  intro b hb
  simp only [cubes, List.mem_cons, List.not_mem_nil, or_false] at hb
  rcases hb with rfl | rfl | rfl <;>
  · refine ⟨by decide, ?_⟩
    intro n hn
    simp only [List.mem_cons, List.not_mem_nil, or_false] at hn
    rcases hn with rfl | rfl <;> decide

theorem cubes_distinct : Distinct cubes := by
  refine ⟨by decide, ?_⟩
  intro b hb
  simp only [cubes, List.mem_cons, List.not_mem_nil, or_false] at hb
  rcases hb with rfl | rfl | rfl <;> decide

/-- The hypotheses hold for the three cubes, and the pair of the first two is found. -/
example : ∃ is, constructInterfaces cubes = .ok is ∧ (0, 1) ∈ pairs is ∧ (1, 0) ∉ pairs is := by
  obtain ⟨is, h1, -, h2⟩ := C94_hex_partial cubes_hex cubes_distinct
  refine ⟨is, h1, (h2 0 1).2 ⟨⟨cubeA, [cubeB, cubeC]⟩, by simp [cubes], cubeB, by simp, rfl, rfl,
    by decide, ?_⟩, ?_⟩
  · refine (hexFace_iff _ _).2 ⟨[1, 5, 6, 2], by decide, 1, by decide, 5, by decide, 6, by decide,
      by decide, by decide, by decide, ?_⟩
    intro k hk
    simp only [List.mem_cons, List.not_mem_nil, or_false] at hk
    rcases hk with rfl | rfl | rfl
    · exact ⟨1, by decide, rfl⟩
    · exact ⟨5, by decide, rfl⟩
    · exact ⟨6, by decide, rfl⟩
  · intro h
    obtain ⟨b, -, n, -, -, -, hlt, -⟩ := (h2 1 0).1 h
    omega

example : ∃ mesh : List Bonded, mesh.length = 2 ∧ AllTet mesh ∧ Distinct mesh := by
  refine ⟨[⟨⟨0, [0, 1, 2, 3]⟩, [⟨1, [1, 2, 3, 4]⟩]⟩, ⟨⟨1, [1, 2, 3, 4]⟩, [⟨0, [0, 1, 2, 3]⟩]⟩],
    rfl, ?_, ?_⟩
  · intro b hb
    simp only [List.mem_cons, List.not_mem_nil, or_false] at hb
    rcases hb with rfl | rfl <;>
    · refine ⟨by decide, ?_⟩
      intro n hn
      simp only [List.mem_cons, List.not_mem_nil, or_false] at hn
      rcases hn with rfl
      decide
  · refine ⟨by decide, ?_⟩
    intro b hb
    simp only [List.mem_cons, List.not_mem_nil, or_false] at hb
    rcases hb with rfl | rfl <;> decide

/-- C94: the four nodes recorded for a pair of hexahedra are those of a side of the left element, and the
number recorded is that of the nodes shared. -/
theorem C94_nodes {mesh : List Bonded} (h : AllHex mesh) {is : List Interface}
    (hi : constructInterfaces mesh = .ok is) : ∀ i ∈ is, ∃ b ∈ mesh, ∃ n ∈ b.neighbors,
      i.left = b.self.gid ∧ i.right = n.gid ∧ ∃ f, IsSide f ∧
        f.map (fun k => b.self.nodes[k]?) = i.nodes.map some ∧
        i.count = (i.nodes.filter fun v => v ∈ n.nodes).length ∧ 2 < i.count := by
  induction mesh generalizing is with
  | nil => cases hi; simp
  | cons b mesh ih =>
    rw [constructInterfaces] at hi
    obtain ⟨js, hj, hi⟩ := Outcome.bind_eq_ok.1 hi
    obtain ⟨ks, hk, hi⟩ := Outcome.bind_eq_ok.1 hi
    cases hi
    intro i him
    rcases List.mem_append.1 him with him | him
    · obtain ⟨n, hn, h1, h2, f, hf, h3⟩ :=
        elementInterfaces_nodes (h b (by simp)).1 (h b (by simp)).2 hj i him
      exact ⟨b, by simp, n, hn, h1, h2, f, ⟨hexFaces_nodup hf, listed_side f hf⟩, h3⟩
    · obtain ⟨c, hc, h'⟩ := ih (fun c hc => h c (by simp [hc])) hk i him
      exact ⟨c, by simp [hc], h'⟩

example : ∃ is, constructInterfaces cubes = .ok is ∧ is ≠ [] := by
  obtain ⟨is, h1, -, h2⟩ := C94_hex_partial cubes_hex cubes_distinct
  refine ⟨is, h1, ?_⟩
  rintro rfl
  have := (h2 0 1).2 ⟨⟨cubeA, [cubeB, cubeC]⟩, by simp [cubes], cubeB, by simp, rfl, rfl, by decide,
    (hexFace_iff _ _).2 ⟨[1, 5, 6, 2], by decide, 1, by decide, 5, by decide, 6, by decide,
      by decide, by decide, by decide, ?_⟩⟩
  · simp [pairs] at this
  · intro k hk
    simp only [List.mem_cons, List.not_mem_nil, or_false] at hk
    rcases hk with rfl | rfl | rfl
    · exact ⟨1, by decide, rfl⟩
    · exact ⟨5, by decide, rfl⟩
    · exact ⟨6, by decide, rfl⟩

/-- C94 is false of the code when neighbourhoods are not symmetric: two cubes with a side in common, of
which the one with the larger id has the other as its neighbour, give no interface. -/
theorem C94_one_sided : ∃ mesh : List Bonded, AllHex mesh ∧ Distinct mesh ∧
    (∃ b ∈ mesh, ∃ n ∈ b.neighbors, HexFace b.self n ∧ HexFace n b.self) ∧
    constructInterfaces mesh = .ok [] := by
  have hh : AllHex [⟨cubeA, []⟩, ⟨cubeB, [cubeA]⟩] := by
    intro b hb
    simp only [List.mem_cons, List.not_mem_nil, or_false] at hb
    rcases hb with rfl | rfl
    · exact ⟨by decide, by simp⟩
    · refine ⟨by decide, ?_⟩
      intro n hn
      simp only [List.mem_cons, List.not_mem_nil, or_false] at hn
      rcases hn with rfl
      decide
  have hd : Distinct [⟨cubeA, []⟩, ⟨cubeB, [cubeA]⟩] := by
    refine ⟨by decide, ?_⟩
    intro b hb
    simp only [List.mem_cons, List.not_mem_nil, or_false] at hb
    rcases hb with rfl | rfl <;> decide
  refine ⟨_, hh, hd, ⟨⟨cubeB, [cubeA]⟩, by simp, cubeA, by simp, ?_, ?_⟩, ?_⟩
  · refine (hexFace_iff _ _).2 ⟨[0, 4, 7, 3], by decide, 0, by decide, 4, by decide, 7, by decide,
      by decide, by decide, by decide, ?_⟩
    intro k hk
    simp only [List.mem_cons, List.not_mem_nil, or_false] at hk
    rcases hk with rfl | rfl | rfl
    · exact ⟨1, by decide, rfl⟩
    · exact ⟨5, by decide, rfl⟩
    · exact ⟨6, by decide, rfl⟩
  · refine (hexFace_iff _ _).2 ⟨[1, 5, 6, 2], by decide, 1, by decide, 5, by decide, 6, by decide,
      by decide, by decide, by decide, ?_⟩
    intro k hk
    simp only [List.mem_cons, List.not_mem_nil, or_false] at hk
    rcases hk with rfl | rfl | rfl
    · exact ⟨1, by decide, rfl⟩
    · exact ⟨5, by decide, rfl⟩
    · exact ⟨6, by decide, rfl⟩
  · obtain ⟨is, h1, -, h2⟩ := C94_hex_partial hh hd
    rcases is with _ | ⟨i, is⟩
    · exact h1
    · obtain ⟨b, hb, n, hn, e1, e2, hlt, -⟩ := (h2 i.left i.right).1 (by simp [pairs])
      simp only [List.mem_cons, List.not_mem_nil, or_false] at hb
      rcases hb with rfl | rfl
      · simp at hn
      · simp only [List.mem_cons, List.not_mem_nil, or_false] at hn
        subst hn
        rw [← e1, ← e2] at hlt
        exact absurd hlt (by decide)

/-! ### Apertures -/

/-- The values written at an output are the changes of length at the output before, and zeros at the
first output: the claim C59 holds only at outputs at which nothing has moved since the one before. -/
theorem C59_partial {is : List Interface} (hc : ∀ i ∈ is, i.count = 4 ∨ i.count = 3) (x : Nat → V3)
    (ys : List (Nat → V3)) :
    ∃ ws, (Apertures.new is).outputs x ys = .ok ws ∧ ws.length = ys.length ∧
      (∀ w, ws[0]? = some w → (∀ a ∈ w.1, a = 0) ∧ (∀ a ∈ w.2, a = 0)) ∧
      ∀ (k : Nat) (y : Nat → V3) (w : Written), ys[k]? = some y → ws[k + 1]? = some w →
        w = (openings is 4 x y, openings is 3 x y) := by
  obtain ⟨ws, h1, h2, h3, h4⟩ := outputs_from hc x (fun _ => 0) ys
  refine ⟨ws, h1, h2, ?_, h4⟩
  intro w hw
  rw [h3 w hw]
  constructor <;>
  · intro a ha
    obtain ⟨_, -, rfl⟩ := List.mem_map.1 ha
    rfl

/-- One interface, for the examples. -/
def oneInterface : List Interface := [⟨0, 1, 4, [1, 5, 6, 2]⟩]

/-- Positions of two elements at distance `d`. -/
def apart (d : ℝ) : Nat → V3 := fun g => if g = 1 then ![d, 0, 0] else 0

example : ∃ ws, (Apertures.new oneInterface).outputs (apart 1) [apart 1, apart 2] = .ok ws ∧
    ws.length = 2 := by
  obtain ⟨ws, h1, h2, -⟩ := C59_partial (is := oneInterface) (by simp [oneInterface]) (apart 1)
    [apart 1, apart 2]
  exact ⟨ws, h1, h2⟩

theorem opening_apart (d : ℝ) (hd : 0 ≤ d) :
    openings oneInterface 4 (apart 1) (apart d) = [d - 1] := by
  have h : ∀ d : ℝ, 0 ≤ d → len ![d, 0, 0] = d := by
    intro d hd
    simp [len, Real.sqrt_mul_self hd]
  simp [openings, oneInterface, apart, h d hd, h 1 zero_le_one]

/-- C59 is false of the code: two elements that are two apart at the only output, and were one apart in
the reference configuration, are written with aperture zero instead of one. -/
theorem C59_late : ∃ (is : List Interface) (x y : Nat → V3) (w : Written),
    (Apertures.new is).outputs x [y] = .ok [w] ∧ openings is 4 x y = [1] ∧ w.1 = [0] := by
  refine ⟨oneInterface, apart 1, apart 2, ([0], []), ?_, ?_, rfl⟩
  · have hno : ¬ ∃ i ∈ oneInterface, i.count ≠ 4 ∧ i.count ≠ 3 := by simp [oneInterface]
    simp only [Apertures.outputs, Apertures.write, Apertures.new, if_neg hno, Outcome.ok_bind]
    simp [Apertures.block, oneInterface]
  · rw [opening_apart 2 (by norm_num)]
    norm_num

end Verif.Storage
