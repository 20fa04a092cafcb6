import Verif.Deck.ListLemmas

/-!
# The section of boundary conditions means what it says (C249), and how its functions are evaluated (C250)
-/

noncomputable section

namespace Verif.Deck

open Verif

/-- **C249, types.**  A type is recognised exactly if the text is its word, in upper or lower case, with blanks or
underscores, and with blanks around it; the word for no type is recognised as such, and every other text, a missing
parameter and one that is no text are refused. -/
theorem C249_types (l : Sublist) :
    (∀ t, readType l = .ok (some t) ↔ ∃ s, l.type = some (.text s) ∧ Named s (typeWord t)) ∧
    (readType l = .ok none ↔ ∃ s, l.type = some (.text s) ∧ Named s "NO_SUCH_BOUNDARY_CONDITION_TYPE") ∧
    ((∀ s t, l.type = some (.text s) → ¬ Named s (typeWord t)) →
      (∀ s, l.type = some (.text s) → ¬ Named s "NO_SUCH_BOUNDARY_CONDITION_TYPE") →
        readType l = .fail .runtimeError) := by
  refine ⟨fun t => readType_ok, readType_none, fun h1 h2 => ?_⟩
  cases h : readType l with
  | ok t =>
    cases t with
    | none => obtain ⟨s, hs, hn⟩ := readType_none.mp h; exact absurd hn (h2 s hs)
    | some t => obtain ⟨s, hs, hn⟩ := readType_ok.mp h; exact absurd hn (h1 s t hs)
  | fail f =>
    rw [readType] at h
    cases hg : getText l.type with
    | ok s =>
      rw [hg, Outcome.ok_bind, lookUp] at h
      split at h
      · simp at h
      · rw [← h]
    | fail g =>
      rw [hg] at h
      have : g = .runtimeError := by
        unfold getText at hg
        split at hg
        · simp at hg
        · injection hg with hg; exact hg.symm
      subst this
      simpa using h.symm
    | ub =>
      unfold getText at hg
      split at hg <;> simp at hg
  | ub =>
    exfalso
    rw [readType] at h
    cases hg : getText l.type with
    | ok s => rw [hg, Outcome.ok_bind, lookUp] at h; split at h <;> simp at h
    | fail g => rw [hg] at h; simp at h
    | ub => unfold getText at hg; split at hg <;> simp at hg

/-- The words of a type. -/
example : Named " prescribed Displacement ".toList (typeWord .prescribedDisplacement) :=
  (named_iff (by decide)).mpr (by decide)

/-- A word that is no type. -/
example (t : BC.BCType) : ¬ Named "prescribed displacements".toList (typeWord t) := by
  intro h
  have := tidy_of_named h
  revert this
  cases t <;> decide

/-- **C249, the section.**  The manager is set up exactly if the node sets can be read, every entry of the section is a
node set, the list of a condition or a list with the word for no type, no condition on a field with one value for each
node has another coordinate than x, and the node sets of thermal fluxes exist.  The conditions are then those the lists
describe, all of them and in their order, after those for rank deficient nodes if these are asked for. -/
theorem C249_section (R : Reader) (I : Input) (mesh : List (Text × List Nat)) (owned : List Nat) (M : Manager) :
    setUp R I mesh owned = .ok M ↔
      readSets R I mesh owned = .ok M.sets ∧
      ∃ ds, Reads R I.entries ds ∧
        (∀ d ∈ ds, OfScalar d.type → d.coord = 0) ∧
        (∀ d ∈ ds, d.type = .thermalFlux → M.sets d.nodeSet ≠ none) ∧
        M.conditions = ⟨ds.flatMap initialOf,
          (if I.create = some true then Setup.deficientConditions else []) ++ ds.flatMap BC.boundaryOf,
          ds.flatMap BC.forceOf⟩ := by
  have hc : (if I.creates = true then Setup.deficientConditions else []) =
      if I.create = some true then Setup.deficientConditions else [] := by
    rw [Input.creates]
    cases I.create with
    | none => simp
    | some b => cases b <;> simp
  obtain ⟨sets, cs⟩ := M
  rw [setUp]
  simp only [Outcome.bind_eq_ok, entries_ok, definitions_iff]
  constructor
  · rintro ⟨s, hs, c, ⟨ds, hr, ⟨hk, rfl⟩, hf⟩, h⟩
    have := Outcome.ok.inj h
    injection this with e1 e2
    subst e1; subst e2
    exact ⟨hs, ds, hr, hk, hf, by rw [← hc]; simp⟩
  · rintro ⟨hs, ds, hr, hk, hf, rfl⟩
    exact ⟨sets, hs, _, ⟨ds, hr, ⟨hk, rfl⟩, hf⟩, by rw [← hc]; simp⟩

/-- An input with a node set and a condition. -/
def demoInput : Input where
  create := none
  entries := [("Left Node Set".toList, .scalar (.text "1 2 3".toList)),
    ("Pull".toList, .list ⟨some (.text "Prescribed Displacement".toList), some (.text "left node set".toList),
      some (.text "y".toList), some (.text "0.5*t".toList)⟩)]

theorem demo_set : NamesSet "Left Node Set".toList :=
  ⟨"LEFT_NODE_SET", "LEFT_".toList, [], (named_iff (by decide)).mpr (by decide), by decide⟩

theorem demo_not : ¬ NamesSet "Pull".toList := by
  rw [← isSetName_iff]; decide

/-- The condition of the input. -/
def demoDefinition (R : Reader) : BC.Definition :=
  ⟨.prescribedDisplacement, "LEFT_NODE_SET", 1, R.compile (.text "value = 0.5*t".toList)⟩

theorem demo_reads (R : Reader) : Reads R demoInput.entries [demoDefinition R] := by
  refine .set demo_set (.condition demo_not
    ⟨⟨_, rfl, (named_iff (w := "PRESCRIBED_DISPLACEMENT") (by decide)).mpr (by decide)⟩,
    ⟨_, rfl, (called_iff (w := "LEFT_NODE_SET")).mpr (by decide)⟩,
    Or.inr ⟨_, rfl, (named_iff (w := "Y") (by decide)).mpr (by decide)⟩,
    Or.inr (Or.inl ⟨_, rfl, ?_, rfl⟩)⟩ .nil)
  intro a b h
  have : ¬ "value".toList <:+: "0.5*t".toList := by decide
  exact this ⟨a, b, h.symm⟩

theorem demo_nodes (R : Reader) : readNodes R "1 2 3".toList = .ok [0, 1, 2] := by
  rw [readNodes, if_pos (by decide)]; decide +kernel

/-- **C249, node sets.**  The node sets can be read exactly if every entry whose name contains "node set" is a text that
gives nodes, and no name, of these and of the sets of the mesh, occurs twice, where case, blanks around the name and
underscores instead of blanks make no difference.  Each processor then has its own nodes of every set, and no other sets
but the one of rank deficient nodes, which is empty, if it is asked for. -/
theorem C249_sets (R : Reader) (I : Input) (mesh : List (Text × List Nat)) (owned : List Nat) (sets : BC.NodeSets) :
    readSets R I mesh owned = .ok sets ↔
      ∃ ls ms, ReadsSets R I.entries ls ∧
        List.Forall₂ (fun (e : Text × List Nat) (m : String × List Nat) => Called e.1 m.1 ∧ m.2 = e.2) mesh ms ∧
        ((ls ++ ms).map Prod.fst).Nodup ∧
        (I.create = some true → sets "RANK_DEFICIENT_NODES" = some []) ∧
        ∀ w, (I.create = some true → w ≠ "RANK_DEFICIENT_NODES") →
          (∀ l, (w, l) ∈ ls ++ ms → sets w = some (l.filter fun g => decide (g ∈ owned))) ∧
          ((∀ l, (w, l) ∉ ls ++ ms) → sets w = none) := by
  have hcr : I.creates = decide (I.create = some true) := by
    rw [Input.creates]
    cases I.create with
    | none => simp
    | some b => cases b <;> simp
  have hmesh : ∀ ms : List (String × List Nat),
      List.Forall₂ (fun (e : Text × List Nat) (m : String × List Nat) => Called e.1 m.1 ∧ m.2 = e.2) mesh ms ↔
        ms = mesh.map fun e => (String.ofList (tidy e.1), e.2) := by
    induction mesh with
    | nil => intro ms; cases ms <;> simp
    | cons e mesh ih =>
      intro ms
      cases ms with
      | nil => simp
      | cons m ms =>
        rw [List.forall₂_cons, ih, List.map_cons, List.cons.injEq]
        refine and_congr_left fun _ => ?_
        rw [called_iff, Prod.ext_iff]
        refine and_congr_left fun _ => ?_
        constructor
        · intro h; rw [← h]; simp
        · intro h; rw [h]; simp
  -- the sets from the names and nodes
  have hadd : ∀ (all : List (String × List Nat)) (s : BC.NodeSets), BC.addNodeSets (fun _ => none) all = .ok s ↔
      (all.map Prod.fst).Nodup ∧ ∀ w, s w = (all.find? fun p => p.1 == w).map Prod.snd := by
    intro all s
    constructor
    · intro h
      obtain ⟨h1, -, h3⟩ := BC.addNodeSets_ok all _ s h
      refine ⟨h1, fun w => ?_⟩
      rw [h3 w]
      cases all.find? fun p => p.1 == w <;> rfl
    · rintro ⟨h1, h2⟩
      have key : ∀ (all : List (String × List Nat)) (s0 : BC.NodeSets), (all.map Prod.fst).Nodup →
          (∀ p ∈ all, s0 p.1 = none) → ∃ s', BC.addNodeSets s0 all = .ok s' := by
        intro all
        induction all with
        | nil => intro s0 _ _; exact ⟨s0, rfl⟩
        | cons p all ih =>
          intro s0 hn h0
          obtain ⟨w, l⟩ := p
          rw [List.map_cons, List.nodup_cons] at hn
          rw [BC.addNodeSets, BC.addNodeSet, h0 _ List.mem_cons_self, Outcome.ok_bind]
          refine ih _ hn.2 fun p hp => ?_
          have hne : p.1 ≠ w := fun e => hn.1 (by rw [← e]; exact List.mem_map.mpr ⟨p, hp, rfl⟩)
          rw [if_neg hne]
          exact h0 p (by simp [hp])
      obtain ⟨s', hs'⟩ := key all (fun _ => none) h1 (by simp)
      obtain ⟨-, -, h3⟩ := BC.addNodeSets_ok all _ s' hs'
      have : s' = s := by
        funext w
        rw [h2 w, h3 w]
        cases all.find? fun p => p.1 == w <;> rfl
      rw [hs', this]
  -- find with distinct names
  have hfind : ∀ (all : List (String × List Nat)), (all.map Prod.fst).Nodup → ∀ w l, (w, l) ∈ all →
      (all.find? fun p => p.1 == w) = some (w, l) := by
    intro all
    induction all with
    | nil => intro _ w l h; simp at h
    | cons p all ih =>
      intro hn w l h
      rw [List.map_cons, List.nodup_cons] at hn
      rw [List.find?_cons]
      rcases List.mem_cons.mp h with rfl | h
      · simp
      · have hne : p.1 ≠ w := fun e => hn.1 (by rw [e]; exact List.mem_map.mpr ⟨(w, l), h, rfl⟩)
        rw [show (p.1 == w) = false by simpa using hne]
        exact ih hn.2 w l h
  have hnone : ∀ (all : List (String × List Nat)) w, (∀ l, (w, l) ∉ all) →
      (all.find? fun p => p.1 == w) = none := by
    intro all w h
    rw [List.find?_eq_none]
    rintro ⟨w', l⟩ hp he
    have : w' = w := by simpa using he
    subst this
    exact h l hp
  rw [readSets]
  simp only [Outcome.bind_eq_ok, inputSets_ok, meshSets_ok]
  constructor
  · rintro ⟨s1, ⟨ls, hr, h1⟩, s2, h2, h⟩
    have hall : BC.addNodeSets (fun _ => none) (ls ++ mesh.map fun e => (String.ofList (tidy e.1), e.2)) = .ok s2 :=
      addNodeSets_append.mpr ⟨s1, h1, h2⟩
    obtain ⟨hn, hs⟩ := (hadd _ _).mp hall
    have := Outcome.ok.inj h
    subst this
    refine ⟨ls, _, hr, (hmesh _).mpr rfl, hn, ?_, ?_⟩
    · intro hc
      simp [BC.cull, Setup.addPlaceholder, hcr, hc, Setup.deficientName]
    · intro w hw
      have hpl : Setup.addPlaceholder I.creates s2 w = s2 w := by
        rw [Setup.addPlaceholder, hcr]
        split
        · rename_i hc
          exact Function.update_of_ne (hw (by simpa using hc)) _ _
        · rfl
      refine ⟨fun l hl => ?_, fun hl => ?_⟩
      · rw [BC.cull, hpl, hs w, hfind _ hn w l hl]; rfl
      · rw [BC.cull, hpl, hs w, hnone _ w hl]; rfl
  · rintro ⟨ls, ms, hr, hm, hn, hdef, hw⟩
    have := (hmesh ms).mp hm
    subst this
    obtain ⟨s2, hs2⟩ : ∃ s2, BC.addNodeSets (fun _ => none)
        (ls ++ mesh.map fun e => (String.ofList (tidy e.1), e.2)) = .ok s2 :=
      ⟨fun w => _, (hadd _ _).mpr ⟨hn, fun w => rfl⟩⟩
    obtain ⟨-, hs⟩ := (hadd _ _).mp hs2
    obtain ⟨s1, h1, h2⟩ := addNodeSets_append.mp hs2
    refine ⟨s1, ⟨ls, hr, h1⟩, s2, h2, ?_⟩
    congr 1
    funext w
    by_cases hc : I.create = some true
    · by_cases he : w = "RANK_DEFICIENT_NODES"
      · subst he
        rw [hdef hc]
        simp [BC.cull, Setup.addPlaceholder, hcr, hc, Setup.deficientName]
      · have hpl : Setup.addPlaceholder I.creates s2 w = s2 w := by
          rw [Setup.addPlaceholder, hcr]
          simp only [hc, decide_true, if_true]
          exact Function.update_of_ne he _ _
        rw [BC.cull, hpl, hs w]
        by_cases hl : ∃ l, (w, l) ∈ ls ++ mesh.map fun e => (String.ofList (tidy e.1), e.2)
        · obtain ⟨l, hl⟩ := hl
          rw [hfind _ hn w l hl, (hw w fun _ => he).1 l hl]; rfl
        · have hl' : ∀ l, (w, l) ∉ ls ++ mesh.map fun e => (String.ofList (tidy e.1), e.2) := fun l h => hl ⟨l, h⟩
          rw [hnone _ w hl', (hw w fun _ => he).2 hl']; rfl
    · have hpl : Setup.addPlaceholder I.creates s2 w = s2 w := by
        rw [Setup.addPlaceholder, hcr]
        simp [hc]
      rw [BC.cull, hpl, hs w]
      by_cases hl : ∃ l, (w, l) ∈ ls ++ mesh.map fun e => (String.ofList (tidy e.1), e.2)
      · obtain ⟨l, hl⟩ := hl
        rw [hfind _ hn w l hl, (hw w fun h => absurd h hc).1 l hl]; rfl
      · have hl' : ∀ l, (w, l) ∉ ls ++ mesh.map fun e => (String.ofList (tidy e.1), e.2) := fun l h => hl ⟨l, h⟩
        rw [hnone _ w hl', (hw w fun h => absurd h hc).2 hl']; rfl

theorem demo_readsSets (R : Reader) : ReadsSets R demoInput.entries [("LEFT_NODE_SET", [0, 1, 2])] :=
  .set ((named_iff (by decide)).mpr (by decide)) demo_set (demo_nodes R) (.other demo_not .nil)

/-- The nodes of the input and of a mesh, on a processor that owns two of them. -/
example (R : Reader) : ∃ sets, readSets R demoInput [("Right".toList, [7, 8])] [1, 7] = .ok sets ∧
    sets "LEFT_NODE_SET" = some [1] ∧ sets "RIGHT" = some [7] := by
  refine ⟨fun w => if w = "LEFT_NODE_SET" then some [1] else if w = "RIGHT" then some [7] else none, ?_, by simp, by simp⟩
  refine (C249_sets ..).mpr ⟨_, [("RIGHT", [7, 8])], demo_readsSets R, ?_, by simp, by simp [demoInput], ?_⟩
  · exact .cons ⟨called_iff.mpr (by decide), rfl⟩ .nil
  · intro w _
    refine ⟨fun l hl => ?_, fun hl => ?_⟩
    · simp at hl
      rcases hl with ⟨rfl, rfl⟩ | ⟨rfl, rfl⟩ <;> decide
    · have h1 : w ≠ "LEFT_NODE_SET" := fun h => hl [0, 1, 2] (by simp [h])
      have h2 : w ≠ "RIGHT" := fun h => hl [7, 8] (by simp [h])
      simp [h1, h2]

/-- The input gives the two objects of its condition. -/
example (R : Reader) : ∃ M, setUp R demoInput [] [1] = .ok M ∧
    M.conditions.boundary = BC.boundaryOf (demoDefinition R) := by
  obtain ⟨sets, hs⟩ : ∃ sets, readSets R demoInput [] [1] = .ok sets := by
    refine ⟨fun w => if w = "LEFT_NODE_SET" then some [1] else none,
      (C249_sets ..).mpr ⟨_, [], demo_readsSets R, .nil, by simp, by simp [demoInput], ?_⟩⟩
    intro w _
    refine ⟨fun l hl => ?_, fun hl => ?_⟩
    · simp at hl
      rcases hl with ⟨rfl, rfl⟩; decide
    · have h1 : w ≠ "LEFT_NODE_SET" := fun h => hl [0, 1, 2] (by simp [h])
      simp [h1]
  exact ⟨⟨sets, _⟩, (C249_section ..).mpr ⟨hs, _, demo_reads R, by simp [demoDefinition, OfScalar],
    by simp [demoDefinition], rfl⟩, by simp [demoInput]⟩

/-- **C249, conditions with such a name.**  A condition whose own name contains "node set" is taken for a node set, and
refused. -/
theorem C249_condition_name (R : Reader) (I : Input) (mesh : List (Text × List Nat)) (owned : List Nat) (M : Manager)
    (n : Text) (l : Sublist) (h : (n, .list l) ∈ I.entries) (hn : NamesSet n) : setUp R I mesh owned ≠ .ok M := by
  intro hM
  obtain ⟨hs, -⟩ := (C249_section ..).mp hM
  obtain ⟨ls, ms, hr, -⟩ := (C249_sets ..).mp hs
  generalize I.entries = es at h hr
  clear hs hM
  revert h
  induction hr with
  | nil => simp
  | other hn' _ ih =>
    intro h
    rcases List.mem_cons.mp h with h | h
    · injection h with h1 _
      subst h1
      exact hn' hn
    · exact ih h
  | set _ _ _ _ ih =>
    intro h
    rcases List.mem_cons.mp h with h | h
    · injection h with _ h2
      simp at h2
    · exact ih h

/-- Such a name. -/
example : NamesSet "Pull at node set 1".toList :=
  ⟨"PULL_AT_NODE_SET_1", "PULL_AT_".toList, "_1".toList, (named_iff (by decide)).mpr (by decide), by decide⟩

/-- **C249 fails for the word of no coordinate**: a condition on a field of vectors is accepted with it, and has no
entry to write to. -/
theorem C249_no_coordinate (R : Reader) (sets : BC.NodeSets) (cs : BC.Conditions) (n ns v : Text) (hn : ¬ NamesSet n) :
    addEntry R sets cs (n, .list ⟨some (.text "body force".toList), some (.text ns),
      some (.text "no such spatial coordinate".toList), some (.text v)⟩) = .ub := by
  have h1 : lookUp typeWords "body force".toList = .ok (some .bodyForce) := by decide +kernel
  have h2 : lookUp coordinateWords "no such spatial coordinate".toList = .ok none := by decide +kernel
  rw [addEntry, if_neg (fun h => hn ((isSetName_iff n).mp h))]
  simp only [readType, getText, Outcome.ok_bind, h1, readSublist, readCoordinate, h2, readValue, isScalarType,
    Bool.false_eq_true, if_false, Outcome.ub_bind]

/-- A name that is not one of a node set. -/
example : ¬ NamesSet "Pull".toList := demo_not

/-! ### Lists of nodes and files -/

/-- **C249, lists (partial).**  Numbers from one on, written with digits and with white space between them, are read as
these nodes; only if white space follows the last number it is there twice. -/
theorem C249_list_partial (R : Reader) (s t : Text) (ns : List Nat) (h : Lists s ns) (ht : White t)
    (hpos : ∀ n ∈ ns, 1 ≤ n) (hlist : fileName (s ++ t) = []) :
    readNodes R (s ++ t) =
      .ok (ns.map (· - 1) ++ if t = [] then [] else (ns.map (· - 1)).getLast?.toList) := by
  rw [readNodes, hlist, if_pos List.length_nil]
  exact readList_lists h t _ none ht hpos (by simp)

/-- A list that satisfies the conditions, and what it gives. -/
example (R : Reader) : readNodes R "12 7".toList = .ok [11, 6] := by
  have h : Lists "12 7".toList [12, 7] :=
    .cons (w := []) (ds := "12".toList) (c := ' ') (s := "7".toList) (by simp [White]) (by simp) (by decide) (by decide)
      (.last (w := [' ']) (ds := "7".toList) (by simp [White, isSpace]) (by simp) (by decide))
  simpa using C249_list_partial R _ [] _ h (by simp [White]) (by simp) (by decide)

/-- **C249, what is no list.**  A list with anything but digits, signs and white space is refused. -/
theorem C249_list_refused (R : Reader) (s : Text) (c : Char) (hc : c ∈ s) (hn : ¬ InNumber c)
    (hlist : fileName s = []) (l : List Nat) : readNodes R s ≠ .ok l := by
  rw [readNodes, hlist, if_pos List.length_nil]
  exact readList_fails none _ c hc hn l

/-- **C249, names of files.**  A text is taken for a list, and no file is looked for, if it has a blank or a tab inside
or begins with a digit other than zero; a name with any other first character but zero, a sign or white space is a
file, and a file that cannot be opened ends the run. -/
theorem C249_file_names (R : Reader) :
    (∀ s, (∃ a u v, s = List.replicate a ' ' ++ (u ++ v) ∧ (∃ c t, u = c :: t ∧ c.isDigit = true ∧ c ≠ '0')) →
      fileName s = []) ∧
    (∀ u c v a b, (c = ' ' ∨ c = '\t') → Mesh.Tight (u ++ c :: v) →
      fileName (List.replicate a ' ' ++ (u ++ c :: v) ++ List.replicate b ' ') = []) ∧
    ∀ a b c t, (∀ d ∈ c :: t, d ≠ ' ' ∧ d ≠ '\t') → ¬ InNumber c →
      readNodes R (List.replicate a ' ' ++ c :: t ++ List.replicate b ' ') =
        match R.files (c :: t) with
        | none => .fail .runtimeError
        | some content => readLines (Mesh.fileLines content) := by
  refine ⟨?_, ?_, ?_⟩
  · rintro s ⟨a, u, v, rfl, c, t, rfl, hc, h0⟩
    exact fileName_digit rfl hc h0
  · intro u c v a b hc ht
    refine fileName_white ⟨c, ?_, hc⟩
    rw [Mesh.trim_tight ht]; simp
  · intro a b c t hw hc
    rw [readNodes, fileName_name hw hc]
    rfl

/-- **C249 fails for some files**: one whose name begins with a number cannot be used, whether it exists or not. -/
theorem C249_file_unusable (R : Reader) (l : List Nat) :
    fileName "3point.txt".toList = [] ∧ readNodes R "3point.txt".toList ≠ .ok l := by
  have h : fileName "3point.txt".toList = [] :=
    (C249_file_names R).1 _ ⟨0, "3".toList, "point.txt".toList, rfl, '3', [], rfl, by decide, by decide⟩
  exact ⟨h, C249_list_refused R _ 'p' (by decide) (by simp [InNumber, isSpace]) h l⟩

/-- **C249, files.**  If every line of the file is a comment, white space, or numbers from one on with white space
between them, the nodes are those of all lines. -/
theorem C249_file (R : Reader) (a b : Nat) (c : Char) (t content : Text) (nss : List (List Nat))
    (hw : ∀ d ∈ c :: t, d ≠ ' ' ∧ d ≠ '\t') (hc : ¬ InNumber c) (hf : R.files (c :: t) = some content)
    (h : List.Forall₂ LineLists (Mesh.fileLines content) nss) :
    readNodes R (List.replicate a ' ' ++ c :: t ++ List.replicate b ' ') = .ok (nss.flatten.map (· - 1)) := by
  rw [(C249_file_names R).2.2 a b c t hw hc, hf]
  exact readLines_lists h

/-- A file with a comment and a line of numbers. -/
example (R : Reader) (hf : R.files "nodes.txt".toList = some "# left\n12 7".toList) :
    readNodes R "nodes.txt".toList = .ok [11, 6] := by
  have h : Lists "12 7".toList [12, 7] :=
    .cons (w := []) (ds := "12".toList) (c := ' ') (s := "7".toList) (by simp [White]) (by simp) (by decide) (by decide)
      (.last (w := [' ']) (ds := "7".toList) (by simp [White, isSpace]) (by simp) (by decide))
  have h2 : List.Forall₂ LineLists (Mesh.fileLines "# left\n12 7".toList) [[], [12, 7]] := by
    have e : Mesh.fileLines "# left\n12 7".toList = ["# left".toList, "12 7".toList ++ []] := by decide
    rw [e]
    exact .cons (.silent (Or.inr ⟨0, '#', " left".toList, rfl, Or.inl rfl⟩))
      (.cons (.list h (by simp [White]) (by simp)) .nil)
  exact C249_file R 0 0 'n' "odes.txt".toList _ _ (by decide) (by simp [InNumber, isSpace]) hf h2

/-- **C249 fails for files with commas**: what follows the first comma of a line is dropped without a word, while the
same text in the input is refused. -/
theorem C249_comma (R : Reader) (hf : R.files "nodes.txt".toList = some "1, 2, 3".toList) (l : List Nat) :
    readNodes R "nodes.txt".toList = .ok [0] ∧ readNodes R "1, 2, 3".toList ≠ .ok l := by
  constructor
  · have := (C249_file_names R).2.2 0 0 'n' "odes.txt".toList (by decide) (by simp [InNumber, isSpace])
    have e : List.replicate 0 ' ' ++ 'n' :: "odes.txt".toList ++ List.replicate 0 ' ' = "nodes.txt".toList := by decide
    rw [e] at this
    rw [this]
    have e2 : ('n' :: "odes.txt".toList) = "nodes.txt".toList := by decide
    rw [e2, hf]
    decide +kernel
  · exact C249_list_refused R _ ',' (by decide) (by simp [InNumber, isSpace]) (by decide) l

/-! ### Numbers as values -/

/-- **C249, values (partial).**  A value given as a number is not used as it is: it is rounded to six digits, which
changes it by at most five millionths of itself, and leaves it as it is exactly if it has no more than six digits. -/
theorem C249_value_partial (R : Reader) (l : Sublist) (d : BC.Definition) (h : Describes R l d) (r : ℝ)
    (hr : l.value = some (.number r)) :
    ∃ q, d.value = R.compile (.number q) ∧ SixDigits r q ∧ |q - r| ≤ 5 / 10 ^ 6 * |r| ∧ (q = r ↔ Short r) := by
  obtain ⟨-, -, -, hv⟩ := h
  rw [hr] at hv
  rcases hv with ⟨s, a, b, hs, -⟩ | ⟨s, hs, -⟩ | ⟨r', q, hs, hq, hf⟩
  · simp at hs
  · simp at hs
  · injection hs with hs
    injection hs with hs
    subst hs
    refine ⟨q, hf, hq, ?_, ?_⟩
    · rw [six_unique hq]; exact printed_error r
    · rw [six_unique hq]; exact printed_short

/-- **C249 fails for values with seven digits**: one and the same condition results from two different numbers. -/
theorem C249_value_lost (R : Reader) (l : Sublist) (d : BC.Definition)
    (h : Describes R { l with value := some (.number 0.1234567) } d) :
    Describes R { l with value := some (.number 0.123457) } d := by
  obtain ⟨h1, h2, h3, hv⟩ := h
  refine ⟨h1, h2, h3, ?_⟩
  have six : ∀ r : ℝ, r = 0.1234567 ∨ r = 0.123457 → SixDigits r 0.123457 := by
    intro r hr
    have e : ((10 : ℝ) ^ (-6 : Int)) = 1 / 1000000 := by norm_num
    refine Or.inr ⟨123457, -6, by norm_num, by norm_num, ?_, ?_, ?_, ?_⟩ <;>
      rcases hr with rfl | rfl
    all_goals first
      | (norm_num; done)
      | (rw [e]; norm_num [abs_of_pos]; done)
      | (rw [e]; intro h; exfalso; revert h; norm_num [abs_of_pos])
  rcases hv with ⟨s, a, b, hs, -⟩ | ⟨s, hs, -⟩ | ⟨r', q, hs, hq, hf⟩
  · simp at hs
  · simp at hs
  · injection hs with hs
    injection hs with hs
    subst hs
    refine Or.inr (Or.inr ⟨0.123457, q, rfl, ?_, hf⟩)
    rw [six_unique hq, ← six_unique (six _ (Or.inl rfl))]
    exact six _ (Or.inr rfl)

/-- A condition whose value is a number. -/
example (R : Reader) : Describes R ⟨some (.text "Body Force".toList), some (.text "all".toList), none,
    some (.number 0.1234567)⟩ ⟨.bodyForce, "ALL", 0, R.compile (.number (printed 0.1234567))⟩ :=
  ⟨⟨_, rfl, (named_iff (w := "BODY_FORCE") (by decide)).mpr (by decide)⟩,
    ⟨_, rfl, (called_iff (w := "ALL")).mpr (by decide)⟩, Or.inl ⟨rfl, rfl⟩,
    Or.inr (Or.inr ⟨_, _, rfl, printed_six _, rfl⟩)⟩

/-! ### Evaluation -/

/-- **C250 (partial).**  If the function of a condition gives `value` by the position and the time alone, and leaves the
position alone, the parser gives its values at the current and at the previous time, as in the model of the conditions. -/
theorem C250_evaluate_partial (C : BC.Ctx) (c : BC.Condition) (program : Variables → Option Variables)
    (u : Nat → ℝ) (l : Nat) (tc tp : ℝ)
    (h : ∀ v, program v = (c.value v.x v.y v.z v.t).map fun r => { v with value := r }) :
    evaluateProgram C c.type c.coord program u l tc tp = BC.evaluateParser C c u l tc tp := by
  rw [evaluateProgram, BC.evaluateParser, evaluateTwice]
  simp only [h, BC.callFunction]
  cases c.value (C.x (l * 3)) (C.x (l * 3 + 1)) (C.x (l * 3 + 2)) tp with
  | none => rfl
  | some a =>
    simp only [Option.map_some]
    cases c.value (C.x (l * 3)) (C.x (l * 3 + 1)) (C.x (l * 3 + 2)) tc with
    | none => rfl
    | some b => rfl

/-- A function that gives its value by the time. -/
example : ∀ v : Variables, (fun v : Variables => some { v with value := 2 * v.t }) v =
    ((fun _ _ _ t => some (2 * t)) v.x v.y v.z v.t).map fun r => { v with value := r } := fun _ => rfl

/-- The program `if(t < 1) {value = 5;}`. -/
def untilOne (v : Variables) : Option Variables :=
  open Classical in if v.t < 1 then some { v with value := 5 } else some v

/-- **C250 fails for functions that do not always assign `value`**: the second evaluation starts with the value of the
first.  With `if(t < 1) {value = 5;}` the value at time 2 is 5 in the step that begins before time 1, and 0 in a step
that begins later. -/
theorem C250_stale (x y z : ℝ) :
    evaluateTwice untilOne x y z 2 0 = .ok (5, 5) ∧ evaluateTwice untilOne x y z 2 (3 / 2) = .ok (0, 0) := by
  constructor
  · simp [evaluateTwice, untilOne]
  · simp [evaluateTwice, untilOne]
    norm_num

/-- **C250, what is evaluated.**  The value at the previous time does not depend on the current time, and both are those
of the program; the second is run on what the first left, with nothing but the time changed. -/
theorem C250_order (program : Variables → Option Variables) (x y z tc tp : ℝ) (cur prev : ℝ) :
    evaluateTwice program x y z tc tp = .ok (cur, prev) ↔
      ∃ v w, program ⟨x, y, z, tp, 0⟩ = some v ∧ program ⟨v.x, v.y, v.z, tc, v.value⟩ = some w ∧
        v.value = prev ∧ w.value = cur := by
  unfold evaluateTwice
  constructor
  · intro h
    split at h
    · simp at h
    · rename_i v hv
      split at h
      · simp at h
      · rename_i w hw
        have := Outcome.ok.inj h
        injection this with h1 h2
        exact ⟨v, w, hv, hw, h2, h1⟩
  · rintro ⟨v, w, hv, hw, rfl, rfl⟩
    rw [hv]
    simp only [hw]

end Verif.Deck
