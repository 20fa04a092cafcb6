import Verif.Exodus.MeshProps

/-! # Which requests are written -/

namespace Verif.Exodus

open Verif Verif.Field Verif.Mech

/-- C191, partial. The request is written whenever the processor has points, its blocks and node sets
consist of them, the components have different names of at most 32 bytes, nodal fields are there in
all blocks and global fields in the first one. What is missing are the requests below. -/
theorem request_is_written_partial {S : Site} {vars : List Var} {steps : List (ℝ × List Blk)}
    {t0 : ℝ} {b0 : List Blk} (h0 : steps[0]? = some (t0, b0))
    (hreq : GoodRequest S vars) (hp : ∀ p ∈ steps, Present vars p.2)
    (hs : globalDataOnly vars = true ∧ S.pid = 0 ∨ globalDataOnly vars = false ∧ GoodSite S b0 ∧
      ∀ p ∈ steps, SameBlocks p.2 b0) :
    ∃ h r, session S vars steps = .ok (some (h, r)) := by
  cases steps with
  | nil => simp at h0
  | cons p rest =>
    simp at h0
    subst h0
    exact session_defined rfl hreq hp hs

example : ∃ h r, session Demo.site Demo.vars Demo.steps = .ok (some (h, r)) := Demo.good

/-- C191. What is written has names that fit. -/
theorem written_names_fit {S : Site} {vars : List Var} {steps : List (ℝ × List Blk)} {h : Header}
    {r : Records} (e : session S vars steps = .ok (some (h, r))) (hown : S.owned ≠ [])
    (hgo : globalDataOnly vars = false) :
    (∀ k, (kindNames k vars).Nodup → k = .global ∨ k = .node ∨ k = .element →
      ∀ a ∈ kindNames k vars, a.utf8ByteSize ≤ maxStr) ∧
    (∀ s ∈ S.nodeSets, s.1.utf8ByteSize ≤ maxStr) := by
  obtain ⟨t, b, rest, N, hst, _, _⟩ := session_ok e
  obtain ⟨N, hinit⟩ := session_init e hgo (t0 := t) (b0 := b) (by rw [hst]; rfl)
  obtain ⟨hall, g, n, l⟩ := names_of_init hinit
  obtain ⟨sets, h1, h2, _, _, _, _, tg, tn, tl, _⟩ := initializeDatabase_ok hinit
  have hd : (!S.owned.isEmpty) = true := by
    cases ho : S.owned with
    | nil => exact absurd ho hown
    | cons _ _ => rfl
  rw [hd] at tg tn tl
  constructor
  · intro k hk hkk
    rcases hkk with rfl | rfl | rfl
    · rw [g, addAll_empty _ hk] at tg
      exact (table_true tg).2
    · rw [n, addAll_empty _ hk] at tn
      exact (table_true tn).2
    · rw [l, addAll_empty _ hk] at tl
      exact (table_true tl).2
  · intro s hs
    have := (copyNames_ok h2).2
    rw [(exodusNodeSets_ok h1).1] at this
    exact this s.1 (List.mem_map_of_mem hs)

example : "Displacement".utf8ByteSize ≤ maxStr := by decide

namespace Demo

/-- Global variables with labels a user chose, for the compute classes `Block_Data`,
`Nearest_Point_Data` and `Node_Set_Data`. -/
def userScalar (label : String) (id : Nat) : Var := ⟨label, ⟨.global, .scalar, .constant, label, id⟩⟩
def userVector (label : String) (id : Nat) : Var := ⟨label, ⟨.global, .vector, .constant, label, id⟩⟩

noncomputable def userBlocks : List Blk := [⟨1, "block_1", [3, 5, 7], fun _ _ => some fun _ => 1⟩]

/-- A nodal field that only the materials of the second block have. -/
def hourglass : Var :=
  ⟨"Hourglass_Force_Density", ⟨.node, .vector, .twoStep, "Hourglass_Force_Density", 4⟩⟩

end Demo

/-- C191. A label of more than 32 bytes is copied past the end of its buffer. -/
theorem long_label_overruns :
    session Demo.site [Demo.userScalar "Reaction_force_on_the_lower_left_support" 5]
      [(0, Demo.userBlocks)] = .ub := by
  rfl

/-- C191. The component of one variable may have the name of another one; the request is then
refused, or names are copied past the end of the table: it depends on the order of the request. -/
theorem clash_of_names_fails :
    session Demo.site [Demo.userVector "Point" 5, Demo.userScalar "PointX" 6]
      [(0, Demo.userBlocks)] = .fail .invalidArgument ∧
    session Demo.site [Demo.userScalar "PointX" 6, Demo.userVector "Point" 5]
      [(0, Demo.userBlocks)] = .ub := by
  exact ⟨rfl, rfl⟩

/-- C191. A nodal field that one block lacks stops the run although an element field would be
written for the blocks that have it. -/
theorem nodal_field_of_one_block_fails :
    session Demo.site [Demo.hourglass] Demo.steps = .fail .rangeError := by
  rfl

/-! ## The values of the request -/

/-- C192, partial. The variables written are the ones listed, in the order of the list.  What is
missing: the value of an entry has no influence. -/
theorem listed_variables_are_requested_partial {fm : FieldManager} {outs : List (String × Bool)}
    {vars : List Var} (h : requested fm outs = .ok vars) :
    vars.map Var.name = outs.map Prod.fst ∧
    ∀ v ∈ vars, getFieldSpecByLabel fm v.name = .ok v.spec := by
  induction outs generalizing vars with
  | nil =>
    rw [requested] at h
    cases h
    simp
  | cons a outs ih =>
    obtain ⟨nm, f⟩ := a
    rw [requested] at h
    simp only [Outcome.bind_eq_ok] at h
    obtain ⟨spec, h1, vs, h2, h3⟩ := h
    cases h3
    obtain ⟨i1, i2⟩ := ih h2
    refine ⟨by simp [i1], ?_⟩
    intro v hv
    rcases List.mem_cons.mp hv with rfl | hv
    · exact h1
    · exact i2 v hv

/-- C192. Setting the value of a variable to false changes nothing. -/
theorem value_of_request_is_ignored (fm : FieldManager) (outs outs' : List (String × Bool))
    (h : outs.map Prod.fst = outs'.map Prod.fst) : requested fm outs = requested fm outs' := by
  induction outs generalizing outs' with
  | nil =>
    cases outs' with
    | nil => rfl
    | cons a l => simp at h
  | cons a outs ih =>
    cases outs' with
    | nil => simp at h
    | cons b outs' =>
      obtain ⟨nm, f⟩ := a
      obtain ⟨nm', f'⟩ := b
      simp at h
      obtain ⟨rfl, h⟩ := h
      rw [requested, requested, ih outs' h]

/-- C192. A variable of which the user said `false` is in the file. -/
theorem false_variable_is_written :
    ∃ id fm vars h r, getFieldId .empty ⟨.global, .scalar, .constant, "Energy"⟩ = .ok (id, fm) ∧
      requested fm [("Energy", false)] = .ok vars ∧
      session Demo.site vars [(0, Demo.userBlocks)] = .ok (some (h, r)) ∧
      (readGlobal h r 1 "Energy").isSome :=
  ⟨_, _, _, _, _, rfl, rfl, rfl, rfl⟩

example (fm : FieldManager) : requested fm [("Energy", true)] = requested fm [("Energy", false)] :=
  value_of_request_is_ignored fm _ _ rfl

example : ∃ fm vars, requested fm [("Energy", false)] = .ok vars ∧ vars.length = 1 :=
  ⟨⟨[⟨.global, .scalar, .constant, "Energy", 0⟩], [("Energy", 0)], [true]⟩, _, rfl, rfl⟩

end Verif.Exodus
