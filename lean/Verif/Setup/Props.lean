import Verif.Setup.Lemmas
import Verif.Neigh.Props

/-!
# Properties C149 to C151: materials, densities and tangents of an analysis
-/

noncomputable section

namespace Verif.Setup

open Verif Verif.Params
open scoped Classical

variable {M : Type}

/-! ### C149 -/

/-- C149: when the set-up of the materials succeeds, every block of the analysis, in order, has one; a horizon that its material
gets is the horizon of every point of the block, wherever it lies; a material without horizon belongs to a block whose
horizon the input gives as a function of position. -/
theorem C149_horizon (rtc : Compiler) (hm : Horizons) (multi : Bool) (probe : ℝ) (ms : String → Option (MaterialList M))
    (bs : List (Params.Block BlockParams)) (r : List (Params.Block BlockParams × Material M))
    (h : materials rtc hm multi probe ms bs = .ok r) :
    r.map Prod.fst = bs ∧ ∀ bm ∈ r,
      (∀ a, bm.2.horizon = some a → ∀ x, pointHorizon rtc hm bm.1.name x = .ok a) ∧
      (bm.2.horizon = none → ∀ a, findHorizon hm bm.1.name ≠ .ok (.constant a)) := by
  obtain ⟨h1, h2⟩ := materials_mem h
  refine ⟨h1, ?_⟩
  intro bm hbm
  obtain ⟨h', name, p, hh, _, _, _, _, _, _, hm'⟩ := blockMaterial_ok (h2 bm hbm)
  have e : bm.2.horizon = h' := by rw [hm']
  rw [e]
  rw [blockHorizon] at hh
  obtain ⟨c, hc, hh⟩ := Outcome.bind_eq_ok.1 hh
  split at hh
  · next hc' =>
    obtain ⟨a, ha, hh⟩ := Outcome.bind_eq_ok.1 hh
    cases hh
    constructor
    · intro a' ha' x
      cases ha'
      rw [pointHorizon, hc, Outcome.ok_bind, if_pos hc', ha]
    · intro hn
      cases hn
  · next hc' =>
    cases hh
    constructor
    · intro a ha
      cases ha
    · intro _ a hf
      rw [hasConstantHorizon, hf, Outcome.ok_bind] at hc
      cases hc
      exact hc' rfl

/-- C149: the other parameters of a block's material are those the input gives for the material that the block names, and the
probe length for finite differences is the given one or else the default. -/
theorem C149_parameters (rtc : Compiler) (hm : Horizons) (multi : Bool) (probe : ℝ) (ms : String → Option (MaterialList M))
    (bs : List (Params.Block BlockParams)) (r : List (Params.Block BlockParams × Material M))
    (h : materials rtc hm multi probe ms bs = .ok r) (bm : Params.Block BlockParams × Material M) (hbm : bm ∈ r) :
    ∃ name p, bm.1.params.material = some name ∧ ms name = some p ∧ p.model = some bm.2.model ∧ bm.2.rest = p.rest ∧
      (∀ l, p.probe = some l → bm.2.probe = some l) ∧ (p.probe = none → bm.2.probe = some probe) := by
  obtain ⟨h', name, p, _, hn, _, hp, _, hmod, _, hm'⟩ := blockMaterial_ok ((materials_mem h).2 bm hbm)
  refine ⟨name, p, hn, hp, hmod, by rw [hm'], ?_, ?_⟩
  · intro l hl
    rw [hm', hl]
    rfl
  · intro hl
    rw [hm', hl]
    rfl

/-- C149: an input in which the material of a block has a horizon of its own, or is missing, or has an unknown model, or in
which a block names no material, is refused. -/
theorem C149_refused (rtc : Compiler) (hm : Horizons) (multi : Bool) (probe : ℝ) (ms : String → Option (MaterialList M))
    (bs : List (Params.Block BlockParams)) (b : Params.Block BlockParams) (hb : b ∈ bs)
    (hbad : b.params.material = none ∨ ∃ name, b.params.material = some name ∧
      (ms name = none ∨ ∃ p, ms name = some p ∧ (p.horizon ≠ none ∨ ∀ n ∈ materialModels, p.model ≠ some n)))
    (r : List (Params.Block BlockParams × Material M)) : materials rtc hm multi probe ms bs ≠ .ok r := by
  intro h
  obtain ⟨h1, h2⟩ := materials_mem h
  rw [← h1] at hb
  obtain ⟨bm, hbm, rfl⟩ := List.mem_map.1 hb
  obtain ⟨h', name, p, _, hn, _, hp, hz, hmod, hin, _⟩ := blockMaterial_ok (h2 bm hbm)
  rcases hbad with hbad | ⟨name', hn', hbad⟩
  · rw [hn] at hbad
    cases hbad
  · rw [hn] at hn'
    cases hn'
    rcases hbad with hbad | ⟨p', hp', hbad⟩
    · rw [hp] at hbad
      cases hbad
    · rw [hp] at hp'
      cases hp'
      rcases hbad with hbad | hbad
      · exact hbad hz
      · exact hbad _ hin hmod

/-- C149, the screening, partial: it does what it is for provided that the name the user chooses for a material contains
"Multiphysics" exactly if the material is a multiphysics material. -/
theorem C149_screening_partial (rtc : Compiler) (hm : Horizons) (multi : Bool) (probe : ℝ)
    (ms : String → Option (MaterialList M)) (hw : WellNamed ms) (bs : List (Params.Block BlockParams))
    (r : List (Params.Block BlockParams × Material M)) (h : materials rtc hm multi probe ms bs = .ok r)
    (bm : Params.Block BlockParams × Material M) (hbm : bm ∈ r) :
    multi = true ↔ bm.2.model = "Multiphysics Elastic" := by
  obtain ⟨h', name, p, _, hn, hs, hp, _, hmod, _, _⟩ := blockMaterial_ok ((materials_mem h).2 bm hbm)
  have := hw name p hp
  rw [screen_ok hs, hmod, Option.some.injEq] at this
  exact this

/-- A block of the given material with constant horizon 2. -/
def demoBlock (material : String) : Params.Block BlockParams := ⟨"block_1", 1, ⟨some material, none⟩⟩

/-- The horizons of the example. -/
def demoHorizons : Horizons := ⟨fun s => if s = "block_1" then some (.constant 2) else none⟩

theorem demo_material (multi : Bool) (name model : String) (hn : contains "Multiphysics" name = multi)
    (hmod : model ∈ materialModels) :
    materials (fun _ _ => none) demoHorizons multi 1 (fun s => if s = name then some ⟨some model, none, none, ()⟩ else none)
      [demoBlock name] = .ok [(demoBlock name, ⟨model, some 2, some 1, ()⟩)] := by
  have hf : findHorizon demoHorizons "block_1" = .ok (.constant 2) := by
    simp [findHorizon, demoHorizons]
  have hh : blockHorizon (fun _ _ => none) demoHorizons "block_1" = .ok (some 2) := by
    rw [blockHorizon, hasConstantHorizon, hf]
    simp only [Outcome.ok_bind, if_true]
    rw [constantHorizon, evaluateHorizon, hf]
    rfl
  have hs : screen multi name = .ok () := by
    rw [screen, hn]
    cases multi <;> simp
  rw [materials, blockMaterial, demoBlock]
  simp only [hh, hs, Outcome.ok_bind, if_true]
  rw [fillParams, if_neg (by simp), Outcome.ok_bind, createMaterial]
  simp only [hmod, if_true, Outcome.ok_bind]
  rfl

theorem contains_iff (part s : String) : contains part s = true ↔ part.toList <:+: s.toList := by
  rw [contains, decide_eq_true_eq]

theorem not_contains_of_length (part s : String) (h : s.toList.length < part.toList.length) :
    contains part s = false := by
  rw [← Bool.not_eq_true, contains_iff]
  intro hi
  exact absurd hi.length_le (by omega)

/-- C149, the screening is not sound: a multiphysics material under another name passes in an analysis without multiphysics.
It is the name of the material, not its model, that is looked at. -/
theorem C149_screening_fails : ¬ ScreeningSound := by
  intro h
  have := h _ _ _ _ _ _ _ (demo_material false "Steel" "Multiphysics Elastic"
    (not_contains_of_length _ _ (by decide)) (by decide)) _ (List.mem_singleton.2 rfl)
  simp at this

/-- C149: and in a multiphysics analysis a material that is not one passes if its name contains the word. -/
theorem C149_screening_other :
    ∃ r, materials (fun _ _ => none) demoHorizons true 1
      (fun s => if s = "Multiphysics" then some ⟨some "Elastic", none, none, ()⟩ else none)
      [demoBlock "Multiphysics"] = .ok r ∧ ∃ bm ∈ r, bm.2.model = "Elastic" :=
  ⟨_, demo_material true "Multiphysics" "Elastic" ((contains_iff _ _).2 (List.infix_refl _)) (by decide), _,
    List.mem_singleton.2 rfl, rfl⟩

/-- The hypotheses of C149 are met by a well-named input that is accepted, and by one that is refused. -/
example : WellNamed (fun s => if s = "Steel" then some (⟨some "Elastic", none, none, ()⟩ : MaterialList Unit) else none) ∧
    materials (fun _ _ => none) demoHorizons false 1
      (fun s => if s = "Steel" then some (⟨some "Elastic", none, none, ()⟩ : MaterialList Unit) else none)
      [demoBlock "Steel"] = .ok [(demoBlock "Steel", ⟨"Elastic", some 2, some 1, ()⟩)] ∧
    (demoBlock "Stahl").params.material = some "Stahl" := by
  have hc : contains "Multiphysics" "Steel" = false := not_contains_of_length _ _ (by decide)
  refine ⟨?_, demo_material false "Steel" "Elastic" hc (by decide), rfl⟩
  intro name p hp
  simp only at hp
  split at hp
  · next hn =>
    cases hp
    rw [hn, hc]
    simp
  · cases hp

/-! ### C150 -/

/-- C150: on every processor, whatever the mesh and the density vector was before, the density of every owned point
becomes the density of the material of its block.  `blks` lists the blocks of the analysis: id, density, and what the
discretization gives for it. -/
theorem C150_density (T : List Neigh.Pt) (hT : (T.map Neigh.Pt.gid).Nodup) (blks : List (Nat × ℝ × Neigh.Block))
    (hb : ∀ b ∈ blks, Neigh.meshBlock T b.1 = .ok b.2.2) (hid : (blks.map Prod.fst).Nodup) (d : Nat → ℝ) :
    ∃ d', setDensities (T.map Neigh.Pt.gid) d (blks.map fun b => ⟨b.2.2.maps.owned, b.2.1⟩) = .ok d' ∧
      ∀ t ∈ T, ∀ b ∈ blks, b.1 = t.block → d' ((T.map Neigh.Pt.gid).idxOf t.gid) = b.2.1 := by
  have hown : ∀ b ∈ blks, ∀ g, g ∈ b.2.2.maps.owned ↔ ∃ t ∈ T, t.block = b.1 ∧ t.gid = g := by
    intro b hbm g
    have e := hb b hbm
    rw [Neigh.meshBlock_eq T hT] at e
    rw [← BC.ok_inj e]
    simp [Neigh.mapsOf, Neigh.ownOf, Neigh.inBlock, and_assoc]
  obtain ⟨d', h⟩ := setDensities_defined (map := T.map Neigh.Pt.gid)
    (bs := blks.map fun b => (⟨b.2.2.maps.owned, b.2.1⟩ : BlockDensity)) d (by
      intro b hbm g hg
      obtain ⟨b', hb', rfl⟩ := List.mem_map.1 hbm
      obtain ⟨t, ht, _, rfl⟩ := (hown b' hb' g).1 hg
      exact List.mem_map_of_mem ht)
  refine ⟨d', h, ?_⟩
  intro t ht b hbm hbt
  refine setDensities_spec h t.gid (List.mem_map_of_mem ht) b.2.1 (Or.inl ?_) ?_
  · exact ⟨_, List.mem_map_of_mem hbm, (hown b hbm t.gid).2 ⟨t, ht, hbt.symm, rfl⟩, rfl⟩
  · intro b' hb' hg
    obtain ⟨b'', hb'', rfl⟩ := List.mem_map.1 hb'
    obtain ⟨t', ht', hbt', hgid⟩ := (hown b'' hb'' t.gid).1 hg
    have := List.inj_on_of_nodup_map hT ht' ht hgid
    subst this
    have : b'' = b := List.inj_on_of_nodup_map hid hb'' hbm (by rw [← hbt', hbt])
    rw [this]

/-- The hypotheses of C150 are met by a mesh with two blocks. -/
example : ∃ blk1 blk2, ((Neigh.demoMesh.map Neigh.Pt.gid).Nodup ∧ Neigh.meshBlock Neigh.demoMesh 1 = .ok blk1 ∧
    Neigh.meshBlock Neigh.demoMesh 2 = .ok blk2 ∧ ([1, 2] : List Nat).Nodup) ∧ blk1.maps.owned = [3, 5] ∧
    blk2.maps.owned = [1] := by
  have h : (Neigh.demoMesh.map Neigh.Pt.gid).Nodup := by decide
  exact ⟨_, _, ⟨h, Neigh.meshBlock_eq _ h 1, Neigh.meshBlock_eq _ h 2, by decide⟩, by decide, by decide⟩

/-! ### C151 -/

/-- C151: the solvers of the analysis are the sublists of the input whose names contain "Solver", in the order of the
input; an entry of such a name that is not a list is refused. -/
theorem C151_solvers {S : Type} (entries : List (String × Entry S)) (L : List S) :
    solverParameters entries = .ok L ↔
      (entries.filter fun e => contains "Solver" e.1).map Prod.snd = L.map .list := by
  have key : ∀ (es : List (String × Entry S)) (acc L : List S),
      es.foldlM collectSolver acc = .ok L ↔
        ∃ L', L = acc ++ L' ∧ (es.filter fun e => contains "Solver" e.1).map Prod.snd = L'.map Entry.list := by
    intro es
    induction es with
    | nil =>
      intro acc L
      constructor
      · intro h
        exact ⟨[], by simp [← BC.ok_inj h], rfl⟩
      · rintro ⟨L', rfl, h⟩
        cases L' with
        | nil => simp only [List.append_nil]; rfl
        | cons => simp at h
    | cons e es ih =>
      intro acc L
      rw [BC.foldlM_cons_ok]
      by_cases hc : contains "Solver" e.1 = true
      · rw [List.filter_cons, if_pos hc, List.map_cons]
        rcases e with ⟨n, s | _⟩
        · simp only [collectSolver, hc, if_true, Outcome.ok.injEq, exists_eq_left']
          rw [ih]
          constructor
          · rintro ⟨L', rfl, h⟩
            exact ⟨s :: L', by simp, by simp [h]⟩
          · rintro ⟨L', rfl, h⟩
            cases L' with
            | nil => simp at h
            | cons a L' =>
              simp only [List.map_cons, List.cons.injEq, Entry.list.injEq] at h
              exact ⟨L', by simp [h.1], h.2⟩
        · simp only [collectSolver, hc, if_true]
          constructor
          · rintro ⟨_, h, _⟩
            cases h
          · rintro ⟨L', _, h⟩
            cases L' <;> simp at h
      · rw [List.filter_cons, if_neg hc]
        simp only [collectSolver, if_neg hc, Outcome.ok.injEq, exists_eq_left']
        exact ih acc L
  rw [solverParameters, key]
  simp

/-- C151: which scheme a solver runs: the one it has a sublist for, if it has only one. -/
theorem C151_scheme (s : SolverList) (sc : Scheme) :
    scheme s = .ok sc → match sc with
      | .explicit => s.verlet = true
      | .quasiStatic => s.quasiStatic = true
      | .noxQuasiStatic => s.noxQuasiStatic = true
      | .implicit => s.implicit = true
      | .implicitDiffusion => s.implicitDiffusion = true := by
  intro h
  rw [scheme] at h
  split at h
  · next hq => cases h; exact hq
  split at h
  · next hq => cases h; exact hq
  split at h
  · next hq => cases h; exact hq
  split at h
  · next hq => cases h; exact hq
  split at h
  · next hq => cases h; exact hq
  · cases h

/-- C151, partial: a solver that solves linear systems works with the full tangent if no solver of the analysis asks for
less.  (Missing: the case in which another solver does, see `C151_fails`.) -/
theorem C151_full_partial (solvers : List SolverList) (coupling : Bool) (s : SolverList) (sc : Scheme) (hs : s ∈ solvers)
    (hsc : scheme s = .ok sc) (hne : sc ≠ .explicit) (hless : ∀ s' ∈ solvers, ¬ AsksForLess s') :
    allocated solvers coupling = .full := by
  rw [allocated, if_pos]
  exact (allocate_iff solvers coupling).2 (Or.inr (Or.inl ⟨⟨s, hs, scheme_implicit hsc hne⟩, hless⟩))

/-- C151: a solver that asks for the full tangent gets it, whatever the others ask for. -/
theorem C151_asked (solvers : List SolverList) (coupling : Bool) (s : SolverList) (hs : s ∈ solvers)
    (ha : s.preconditioner = some "Full Tangent") : allocated solvers coupling = .full := by
  rw [allocated, if_pos]
  exact (allocate_iff solvers coupling).2 (Or.inl ⟨s, hs, ha⟩)

/-- C151: a solver that solves linear systems never runs without a matrix. -/
theorem C151_some (solvers : List SolverList) (coupling : Bool) (s : SolverList) (sc : Scheme) (hs : s ∈ solvers)
    (hsc : scheme s = .ok sc) (hne : sc ≠ .explicit) : allocated solvers coupling ≠ .none := by
  rw [allocated]
  split
  · simp
  · next h1 =>
    rw [if_pos]
    · simp
    · rw [allocateBlockDiagonal, flags_block]
      right
      by_contra hn
      exact h1 ((allocate_iff solvers coupling).2
        (Or.inr (Or.inl ⟨⟨s, hs, scheme_implicit hsc hne⟩, fun s' hs' ha => hn ⟨s', hs', ha⟩⟩)))

/-- C151: no matrix is allocated for an analysis of solvers without any sublist of a scheme that needs one and without
preconditioner. -/
theorem C151_explicit (solvers : List SolverList)
    (h : ∀ s ∈ solvers, s.quasiStatic = false ∧ s.noxQuasiStatic = false ∧ s.implicit = false ∧
      s.implicitDiffusion = false ∧ s.preconditioner = none) : allocated solvers false = .none := by
  rw [allocated, if_neg, if_neg]
  · rw [allocateBlockDiagonal, flags_block]
    rintro (h' | ⟨s, hs, ha | ha⟩)
    · cases h'
    · rw [(h s hs).2.2.2.2] at ha; cases ha
    · rw [(h s hs).2.2.2.2] at ha; cases ha
  · rw [allocate_iff]
    rintro (⟨s, hs, ha⟩ | ⟨⟨s, hs, ha⟩, _⟩ | ha)
    · rw [(h s hs).2.2.2.2] at ha; cases ha
    · obtain ⟨h1, h2, h3, h4, _⟩ := h s hs
      rw [h1, h2, h3, h4] at ha
      simp at ha
    · cases ha

/-- C151 is false of the code: in an analysis with a quasi-static solver followed by a NOX solver that asks for the
block-diagonal preconditioner, the quasi-static solver is given the block-diagonal matrix as well. -/
theorem C151_fails : ¬ TangentsFit := by
  intro h
  have h1 := h [{ quasiStatic := true }, { noxQuasiStatic := true, preconditioner := some "Block 3x3" }] false
    { quasiStatic := true } .quasiStatic List.mem_cons_self rfl (by simp) (by simp [AsksForLess])
  have h2 : allocated [{ quasiStatic := true }, { noxQuasiStatic := true, preconditioner := some "Block 3x3" }] false =
      .blockDiagonal := by
    rw [allocated, if_neg, if_pos]
    · rw [allocateBlockDiagonal, flags_block]
      exact Or.inr ⟨_, List.mem_cons_of_mem _ List.mem_cons_self, Or.inl rfl⟩
    · rw [allocate_iff]
      rintro (⟨s, hs, ha⟩ | ⟨_, ha⟩ | ha)
      · simp only [List.mem_cons, List.not_mem_nil, or_false] at hs
        rcases hs with rfl | rfl <;> simp at ha
      · exact ha _ (List.mem_cons_of_mem _ List.mem_cons_self) (Or.inl rfl)
      · cases ha
  rw [h2] at h1
  cases h1

/-- The hypotheses of the positive parts of C151 are met. -/
example : scheme { implicit := true } = .ok .implicit ∧ (∀ s' ∈ [({ implicit := true } : SolverList)], ¬ AsksForLess s') ∧
    scheme { verlet := true } = .ok .explicit ∧ allocated [{ implicit := true }] false = .full := by
  have h : ∀ s' ∈ [({ implicit := true } : SolverList)], ¬ AsksForLess s' := by simp [AsksForLess]
  exact ⟨rfl, h, rfl, C151_full_partial _ _ _ .implicit (List.mem_singleton.2 rfl) rfl (by simp) h⟩

example : solverParameters [("Blocks", .value), ("Solver1", .list 1), ("My Solver", .list 2)] = .ok [1, 2] := by
  rw [C151_solvers]
  have h1 : contains "Solver" "Blocks" = false := by rw [← Bool.not_eq_true, contains_iff]; decide
  have h2 : contains "Solver" "Solver1" = true := by rw [contains_iff]; decide
  have h3 : contains "Solver" "My Solver" = true := by rw [contains_iff]; decide
  simp [h1, h2, h3]

end Verif.Setup
