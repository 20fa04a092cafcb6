import Verif.Touch.InteractLemmas
import Verif.Touch.FrictionProps

/-! C195: the contact model of a block; C196: contact interactions. -/

noncomputable section

namespace Verif.Touch

open Verif Verif.Mech Verif.Neigh Verif.Contact
open scoped Classical

/-- The friction coefficient given, zero if none is given. -/
def GivenFriction (P : String → Option Value) (μ : ℝ) : Prop :=
  P "Friction Coefficient" = some (.real μ) ∨ (P "Friction Coefficient" = none ∧ μ = 0)

theorem configure_models {compile : String → Option Body} {I : Interactions} {ids : List Nat} {idOf : String → Option Nat}
    {models : List (String × (String → Option Value))} {blocks : List (Nat × Option ℝ)} {L : List Entry}
    {ms : List (Nat × Model)} (h : configure compile I ids idOf models blocks = .ok (L, ms)) :
    interactionList I ids idOf = .ok L ∧
      List.Forall₂ (fun (b : Nat × Option ℝ) x => x.1 = b.1 ∧ modelFor compile (models.map Prod.snd) b.2 = .ok x.2) blocks ms := by
  rw [configure, Outcome.bind_eq_ok] at h
  obtain ⟨L', h1, h2⟩ := h
  rw [Outcome.bind_eq_ok] at h2
  obtain ⟨ms', h3, h4⟩ := h2
  cases h4
  refine ⟨h1, ?_⟩
  rw [Redist.allOk_iff] at h3
  refine h3.imp ?_
  intro b x hb
  rw [Outcome.bind_eq_ok] at hb
  obtain ⟨m, h5, h6⟩ := hb
  cases h6
  exact ⟨rfl, h5⟩

/-- C195: with the model "Short Range Force" every contact block has the radius, spring constant and friction coefficient of
the input (zero if not given) and the horizon of that block.  `_partial`: it is the first entry of the "Models" section whose
values are used, whichever the interactions name, see `C195_named_false`. -/
theorem C195_short_range_partial (compile : String → Option Body) (I : Interactions) (ids : List Nat)
    (idOf : String → Option Nat) (name : String) (P : String → Option Value) (rest : List (String × (String → Option Value)))
    (blocks : List (Nat × Option ℝ)) (L : List Entry) (ms : List (Nat × Model)) (R k μ : ℝ)
    (hn : P "Contact Model" = some (.text "Short Range Force")) (hR : P "Contact Radius" = some (.real R))
    (hk : P "Spring Constant" = some (.real k)) (hμ : GivenFriction P μ)
    (h : configure compile I ids idOf ((name, P) :: rest) blocks = .ok (L, ms)) :
    List.Forall₂ (fun (b : Nat × Option ℝ) x => x.1 = b.1 ∧ ∃ δ, b.2 = some δ ∧ x.2 = ⟨⟨R, k, μ, δ⟩, .fixed⟩) blocks ms := by
  refine (configure_models h).2.imp ?_
  intro b x ⟨h1, h2⟩
  refine ⟨h1, ?_⟩
  unfold modelFor at h2
  cases hb : b.2 with
  | none => rw [hb] at h2; cases h2
  | some δ =>
    rw [hb] at h2
    simp only [List.map_cons] at h2
    split at h2
    · cases h2
    refine ⟨δ, rfl, ?_⟩
    have e1 : getText (completed P δ) "Contact Model" = .ok "Short Range Force" := by
      simp [getText, completed, hn]
    have e2 : getReal (completed P δ) "Contact Radius" = .ok R := by simp [getReal, completed, hR]
    have e3 : getReal (completed P δ) "Spring Constant" = .ok k := by simp [getReal, completed, hk]
    have e4 : getReal (completed P δ) "Friction Coefficient" = .ok μ := by
      rcases hμ with hμ | ⟨hμ, rfl⟩ <;> simp [getReal, completed, hμ]
    have e5 : getReal (completed P δ) "Horizon" = .ok δ := by simp [getReal, completed]
    rw [createModel, e1, Outcome.ok_bind, if_pos rfl, e2, Outcome.ok_bind, e3, Outcome.ok_bind, e4, Outcome.ok_bind, e5,
      Outcome.ok_bind] at h2
    exact (Outcome.ok.inj h2).symm

/-- C195: with the time-dependent model the friction coefficient comes from the text of the input, made a statement if it is
an expression. -/
theorem C195_time_dependent_partial (compile : String → Option Body) (I : Interactions) (ids : List Nat)
    (idOf : String → Option Nat) (name : String) (P : String → Option Value) (rest : List (String × (String → Option Value)))
    (blocks : List (Nat × Option ℝ)) (L : List Entry) (ms : List (Nat × Model)) (R k : ℝ) (f : String)
    (hn : P "Contact Model" = some (.text "Time Dependent Short Range Force"))
    (hR : P "Contact Radius" = some (.real R)) (hk : P "Spring Constant" = some (.real k))
    (hμ : P "Friction Coefficient" = some (.text f))
    (h : configure compile I ids idOf ((name, P) :: rest) blocks = .ok (L, ms)) :
    List.Forall₂ (fun (b : Nat × Option ℝ) x => x.1 = b.1 ∧ ∃ δ, b.2 = some δ ∧
      x.2 = ⟨⟨R, k, 0, δ⟩, .timed (compile (if "value".toList <:+: f.toList then f else "value = " ++ f))⟩) blocks ms := by
  refine (configure_models h).2.imp ?_
  intro b x ⟨h1, h2⟩
  refine ⟨h1, ?_⟩
  unfold modelFor at h2
  cases hb : b.2 with
  | none => rw [hb] at h2; cases h2
  | some δ =>
    rw [hb] at h2
    simp only [List.map_cons] at h2
    split at h2
    · cases h2
    refine ⟨δ, rfl, ?_⟩
    have e1 : getText (completed P δ) "Contact Model" = .ok "Time Dependent Short Range Force" := by
      simp [getText, completed, hn]
    have e2 : getReal (completed P δ) "Contact Radius" = .ok R := by simp [getReal, completed, hR]
    have e3 : getReal (completed P δ) "Spring Constant" = .ok k := by simp [getReal, completed, hk]
    have e4 : getText (completed P δ) "Friction Coefficient" = .ok f := by simp [getText, completed, hμ]
    have e5 : getReal (completed P δ) "Horizon" = .ok δ := by simp [getReal, completed]
    rw [createModel, e1, Outcome.ok_bind, if_neg (by decide), if_pos rfl, e4, Outcome.ok_bind, e2, Outcome.ok_bind, e3,
      Outcome.ok_bind, e5, Outcome.ok_bind] at h2
    exact (Outcome.ok.inj h2).symm

/-- The parameters of the examples. -/
def demoList (radius : ℝ) : String → Option Value := fun k =>
  if k = "Contact Model" then some (.text "Short Range Force")
  else if k = "Contact Radius" then some (.real radius)
  else if k = "Spring Constant" then some (.real 1)
  else none

/-- Time-dependent friction. -/
def demoTimed : String → Option Value := fun k =>
  if k = "Contact Model" then some (.text "Time Dependent Short Range Force")
  else if k = "Contact Radius" then some (.real 2)
  else if k = "Spring Constant" then some (.real 1)
  else if k = "Friction Coefficient" then some (.text "t")
  else none

/-- The names of the blocks of the examples. -/
def demoId (s : String) : Option Nat :=
  if s = "block_1" then some 1 else if s = "block_2" then some 2 else none

/-- C195, definedness: with the parameters there, no horizon in the contact section, constant horizons in the blocks and some
interaction, the contact manager is set up. -/
theorem C195_defined (compile : String → Option Body) (I : Interactions) (ids : List Nat) (idOf : String → Option Nat)
    (name : String) (P : String → Option Value) (rest : List (String × (String → Option Value)))
    (blocks : List (Nat × Option ℝ)) (L : List Entry) (R k μ : ℝ)
    (hn : P "Contact Model" = some (.text "Short Range Force")) (hR : P "Contact Radius" = some (.real R))
    (hk : P "Spring Constant" = some (.real k)) (hμ : GivenFriction P μ) (hh : P "Horizon" = none)
    (hb : ∀ b ∈ blocks, b.2 ≠ none) (hI : interactionList I ids idOf = .ok L) :
    ∃ ms, configure compile I ids idOf ((name, P) :: rest) blocks = .ok (L, ms) := by
  have key : ∀ b ∈ blocks, ∃ x : Nat × Model, (do
      let m ← modelFor compile (((name, P) :: rest).map Prod.snd) b.2
      Outcome.ok (b.1, m)) = .ok x := by
    intro b hbm
    cases hd : b.2 with
    | none => exact absurd hd (hb b hbm)
    | some δ =>
      have e1 : getText (completed P δ) "Contact Model" = .ok "Short Range Force" := by
        simp [getText, completed, hn]
      have e2 : getReal (completed P δ) "Contact Radius" = .ok R := by simp [getReal, completed, hR]
      have e3 : getReal (completed P δ) "Spring Constant" = .ok k := by simp [getReal, completed, hk]
      have e4 : getReal (completed P δ) "Friction Coefficient" = .ok μ := by
        rcases hμ with hμ | ⟨hμ, rfl⟩ <;> simp [getReal, completed, hμ]
      have e5 : getReal (completed P δ) "Horizon" = .ok δ := by simp [getReal, completed]
      refine ⟨(b.1, ⟨⟨R, k, μ, δ⟩, .fixed⟩), ?_⟩
      simp only [modelFor, List.map_cons]
      rw [if_neg (by simp [hh]), createModel, e1, Outcome.ok_bind, if_pos rfl, e2, Outcome.ok_bind, e3, Outcome.ok_bind, e4,
        Outcome.ok_bind, e5, Outcome.ok_bind, Outcome.ok_bind]
  obtain ⟨ms, h⟩ := allOk_some _ _ key
  exact ⟨ms, by rw [configure, hI, Outcome.ok_bind, h, Outcome.ok_bind]⟩

theorem demo_list (I : Interactions) (h : I = ⟨some "B", none, []⟩) : interactionList I [1, 2] demoId = .ok [(1, 2, "B")] := by
  subst h
  simp [interactionList, ownEntries, generalEntries, pairEntries, insertEntry, before, keepLast, List.zipIdx]

example : ∃ ms, configure (fun _ => none) ⟨some "B", none, []⟩ [1, 2] demoId [("B", demoList 2)] [(1, some 3), (2, some 4)] =
      .ok ([(1, 2, "B")], ms) ∧
    List.Forall₂ (fun (b : Nat × Option ℝ) x => x.1 = b.1 ∧ ∃ δ, b.2 = some δ ∧ x.2 = ⟨⟨2, 1, 0, δ⟩, .fixed⟩)
      [(1, some 3), (2, some 4)] ms := by
  obtain ⟨ms, h⟩ := C195_defined (fun _ => none) ⟨some "B", none, []⟩ [1, 2] demoId "B" (demoList 2) []
    [(1, some 3), (2, some 4)] [(1, 2, "B")] 2 1 0 rfl rfl rfl (Or.inr ⟨rfl, rfl⟩) rfl (by simp) (demo_list _ rfl)
  exact ⟨ms, h, C195_short_range_partial _ _ _ _ _ _ _ _ _ _ 2 1 0 rfl rfl rfl (Or.inr ⟨rfl, rfl⟩) h⟩

example : ∃ m, modelFor (fun s => if s = "value = t" then some fun t _ => some t else none) [demoTimed] (some 3) = .ok m ∧
    m.params.horizon = 3 ∧ Asks m fun t => t := by
  refine ⟨⟨⟨2, 1, 0, 3⟩, .timed (some fun t _ => some t)⟩, ?_, rfl, fun _ _ => rfl⟩
  have h : functionText "t" = "value = t" := by
    rw [functionText, if_neg (by decide)]
    rfl
  have e1 : getText (completed demoTimed 3) "Contact Model" = .ok "Time Dependent Short Range Force" := by
    simp [getText, completed, demoTimed]
  have e2 : getReal (completed demoTimed 3) "Contact Radius" = .ok 2 := by simp [getReal, completed, demoTimed]
  have e3 : getReal (completed demoTimed 3) "Spring Constant" = .ok 1 := by simp [getReal, completed, demoTimed]
  have e4 : getText (completed demoTimed 3) "Friction Coefficient" = .ok "t" := by simp [getText, completed, demoTimed]
  have e5 : getReal (completed demoTimed 3) "Horizon" = .ok 3 := by simp [getReal, completed]
  rw [modelFor, if_neg (by simp [demoTimed]), createModel, e1, Outcome.ok_bind, if_neg (by decide), if_pos rfl, e4,
    Outcome.ok_bind, e2, Outcome.ok_bind, e3, Outcome.ok_bind, e5, Outcome.ok_bind, h, if_pos rfl]

/-- C195 is false if there are two models: the interaction between the blocks names the second, the blocks get the first. -/
theorem C195_named_false :
    ∃ ms, configure (fun _ => none) ⟨some "B", none, []⟩ [1, 2] demoId [("A", demoList 2), ("B", demoList 7)]
        [(1, some 3), (2, some 4)] = .ok ([(1, 2, "B")], ms) ∧
      ∀ x ∈ ms, x.2.params.radius = 2 := by
  obtain ⟨ms, h⟩ := C195_defined (fun _ => none) ⟨some "B", none, []⟩ [1, 2] demoId "A" (demoList 2) [("B", demoList 7)]
    [(1, some 3), (2, some 4)] [(1, 2, "B")] 2 1 0 rfl rfl rfl (Or.inr ⟨rfl, rfl⟩) rfl (by simp) (demo_list _ rfl)
  refine ⟨ms, h, ?_⟩
  have h1 := C195_short_range_partial _ _ _ _ _ _ _ _ _ _ 2 1 0 rfl rfl rfl (Or.inr ⟨rfl, rfl⟩) h
  intro x hx
  obtain ⟨i, hi⟩ := List.mem_iff_getElem?.1 hx
  cases h1 with
  | cons h2 h3 =>
    cases h3 with
    | cons h4 h5 =>
      cases h5
      simp only [List.mem_cons, List.not_mem_nil, or_false] at hx
      rcases hx with rfl | rfl
      · obtain ⟨_, δ, _, e⟩ := h2; rw [e]
      · obtain ⟨_, δ, _, e⟩ := h4; rw [e]

/-- C195, errors: a block with a varying horizon, a horizon in the contact section, an unknown model, and a time-dependent
model without a friction function (the default is a number) all stop the simulation; an empty "Models" section is not
noticed. -/
theorem C195_errors (compile : String → Option Body) (P : String → Option Value) (rest : List (String → Option Value))
    (models : List (String → Option Value)) (δ : ℝ) :
    modelFor compile models none = .fail .terminate ∧
    (P "Horizon" ≠ none → modelFor compile (P :: rest) (some δ) = .fail .runtimeError) ∧
    (P "Horizon" = none → (∀ s, P "Contact Model" = some (.text s) →
        s ≠ "Short Range Force" ∧ s ≠ "Time Dependent Short Range Force") →
      ∃ e, modelFor compile (P :: rest) (some δ) = .fail e) ∧
    (P "Horizon" = none → P "Contact Model" = some (.text "Time Dependent Short Range Force") →
      P "Friction Coefficient" = none → modelFor compile (P :: rest) (some δ) = .fail .invalidArgument) ∧
    modelFor compile [] (some δ) = .ub := by
  refine ⟨rfl, ?_, ?_, ?_, rfl⟩
  · intro h
    rw [modelFor, if_pos (Option.isSome_iff_ne_none.2 h)]
  · intro h0 h
    rw [modelFor, if_neg (by simp [h0]), createModel]
    have e : completed P δ "Contact Model" = P "Contact Model" := by simp [completed]
    match hc : P "Contact Model" with
    | none =>
      have : getText (completed P δ) "Contact Model" = .fail .invalidArgument := by rw [getText, e, hc]
      rw [this]; exact ⟨_, rfl⟩
    | some (.real x) =>
      have : getText (completed P δ) "Contact Model" = .fail .invalidArgument := by rw [getText, e, hc]
      rw [this]; exact ⟨_, rfl⟩
    | some (.text s) =>
      have : getText (completed P δ) "Contact Model" = .ok s := by rw [getText, e, hc]
      rw [this, Outcome.ok_bind, if_neg (h s hc).1, if_neg (h s hc).2]
      exact ⟨_, rfl⟩
  · intro h0 h1 h2
    have e1 : getText (completed P δ) "Contact Model" = .ok "Time Dependent Short Range Force" := by
      simp [getText, completed, h1]
    have e4 : getText (completed P δ) "Friction Coefficient" = .fail .invalidArgument := by simp [getText, completed, h2]
    rw [modelFor, if_neg (by simp [h0]), createModel, e1, Outcome.ok_bind, if_neg (by decide), if_pos rfl, e4]
    rfl

example : modelFor (fun _ => none) [fun k => if k = "Friction Coefficient" then none else demoTimed k] (some 3) =
    .fail .invalidArgument :=
  (C195_errors _ (fun k => if k = "Friction Coefficient" then none else demoTimed k) [] [] 3).2.2.2.1 rfl rfl rfl

/-- What the input defines for two blocks: general or self contact for their ids in order, and the single interactions as
they are written. -/
def Defined (I : Interactions) (ids : List Nat) (idOf : String → Option Nat) (e : Entry) : Prop :=
  (∃ (i j a b : Nat), ids[i]? = some a ∧ ids[j]? = some b ∧ e.1 = min a b ∧ e.2.1 = max a b ∧
    ((i = j ∧ I.self = some e.2.2) ∨ (i ≠ j ∧ I.general = some e.2.2))) ∨
  ∃ x ∈ I.others, idOf x.1 = some e.1 ∧ idOf x.2.1 = some e.2.1 ∧ x.2.2 = e.2.2

theorem mem_generalEntries (I : Interactions) (ids : List Nat) (e : Entry) : e ∈ generalEntries I ids ↔
    ∃ (i j a b : Nat), ids[i]? = some a ∧ ids[j]? = some b ∧ e.1 = min a b ∧ e.2.1 = max a b ∧
    ((i = j ∧ I.self = some e.2.2) ∨ (i ≠ j ∧ I.general = some e.2.2)) := by
  unfold generalEntries
  simp only [List.mem_flatMap]
  constructor
  · rintro ⟨x, hx, y, hy, h⟩
    have hx' := List.mem_zipIdx_iff_getElem?.1 hx
    have hy' := List.mem_zipIdx_iff_getElem?.1 hy
    refine ⟨x.2, y.2, x.1, y.1, hx', hy', ?_⟩
    unfold pairEntries at h
    split at h
    · rename_i hij
      cases hs : I.self with
      | none => rw [hs] at h; cases h
      | some m =>
        rw [hs] at h
        rw [List.mem_singleton.1 h]
        exact ⟨rfl, rfl, Or.inl ⟨hij, rfl⟩⟩
    · rename_i hij
      cases hs : I.general with
      | none => rw [hs] at h; cases h
      | some m =>
        rw [hs] at h
        rw [List.mem_singleton.1 h]
        exact ⟨rfl, rfl, Or.inr ⟨hij, rfl⟩⟩
  · rintro ⟨i, j, a, b, hi, hj, h1, h2, h3⟩
    refine ⟨(a, i), List.mem_zipIdx_iff_getElem?.2 hi, (b, j), List.mem_zipIdx_iff_getElem?.2 hj, ?_⟩
    have e0 : e = (min a b, max a b, e.2.2) := Prod.ext h1 (Prod.ext h2 rfl)
    unfold pairEntries
    rcases h3 with ⟨h3, h4⟩ | ⟨h3, h4⟩
    · rw [if_pos h3, h4]
      exact List.mem_singleton.2 e0
    · rw [if_neg h3, h4]
      exact List.mem_singleton.2 e0

theorem mem_ownEntries {idOf : String → Option Nat} {l : List (String × String × String)} {r : List Entry}
    (h : ownEntries idOf l = .ok r) (e : Entry) :
    e ∈ r ↔ ∃ x ∈ l, idOf x.1 = some e.1 ∧ idOf x.2.1 = some e.2.1 ∧ x.2.2 = e.2.2 := by
  induction l generalizing r with
  | nil => cases h; simp
  | cons x l ih =>
    rw [ownEntries] at h
    cases h1 : idOf x.1 with
    | none => rw [h1] at h; cases h
    | some a =>
      cases h2 : idOf x.2.1 with
      | none => rw [h1, h2] at h; cases h
      | some b =>
        rw [h1, h2] at h
        simp only at h
        rw [Outcome.bind_eq_ok] at h
        obtain ⟨r', h3, h4⟩ := h
        cases h4
        rw [List.mem_cons, ih h3]
        constructor
        · rintro (rfl | ⟨z, hz, h5⟩)
          · exact ⟨x, List.mem_cons_self, h1, h2, rfl⟩
          · exact ⟨z, List.mem_cons_of_mem _ hz, h5⟩
        · rintro ⟨z, hz, h5, h6, h7⟩
          rcases List.mem_cons.1 hz with rfl | hz
          · left
            rw [h1] at h5; rw [h2] at h6
            exact Prod.ext (Option.some.inj h5).symm (Prod.ext (Option.some.inj h6).symm h7.symm)
          · exact Or.inr ⟨z, hz, h5, h6, h7⟩

/-- C196, the list of interactions: it has every ordered pair of blocks for which there is a definition exactly once, with the
greatest of the model names defined for it.  `_partial`: which of several definitions counts is decided by the names and not by
their order in the input (`C196_final_false`), and a pair can be in the list in both orders (`C196_twice_false`). -/
theorem C196_list_partial (I : Interactions) (ids : List Nat) (idOf : String → Option Nat) (L : List Entry)
    (h : interactionList I ids idOf = .ok L) :
    (L.Pairwise fun a b => a.1 ≠ b.1 ∨ a.2.1 ≠ b.2.1) ∧
    ∀ e, e ∈ L ↔ Defined I ids idOf e ∧ ∀ z, Defined I ids idOf z → z.1 = e.1 → z.2.1 = e.2.1 → z.2.2 ≤ e.2.2 := by
  rw [interactionList, Outcome.bind_eq_ok] at h
  obtain ⟨own, h1, h2⟩ := h
  obtain ⟨s1, s2⟩ := fold_entries (generalEntries I ids ++ own) [] .nil
  have hm : ∀ e, e ∈ (generalEntries I ids ++ own).foldl (fun s e => insertEntry e s) [] ↔ Defined I ids idOf e := by
    intro e
    rw [s2, List.mem_append, mem_generalEntries, mem_ownEntries h1]
    simp [Defined]
  generalize (generalEntries I ids ++ own).foldl (fun s e => insertEntry e s) [] = s at h2 s1 hm
  cases s with
  | nil => cases h2
  | cons a s =>
    cases h2
    obtain ⟨k1, k2⟩ := keepLast_eq (a :: s) s1
    refine ⟨k2, fun e => ?_⟩
    rw [k1, hm]
    constructor
    · exact fun ⟨h3, h4⟩ => ⟨h3, fun z hz => h4 z ((hm z).2 hz)⟩
    · exact fun ⟨h3, h4⟩ => ⟨h3, fun z hz => h4 z ((hm z).1 hz)⟩

example : ∃ L, interactionList ⟨some "B", some "A", [("block_1", "block_2", "C")]⟩ [1, 2] demoId = .ok L ∧ (1, 2, "C") ∈ L := by
  refine ⟨[(1, 1, "A"), (1, 2, "C"), (2, 2, "A")], ?_, by simp⟩
  simp [interactionList, ownEntries, generalEntries, pairEntries, insertEntry, before, keepLast, List.zipIdx, demoId,
    Outcome.ok_bind]

/-- C196 is false as the code's comment puts it ("the final definition is the one that will be used"): general contact has
model "B", and the later definition "A" for blocks 1 and 2 is dropped. -/
theorem C196_final_false :
    interactionList ⟨some "B", none, [("block_1", "block_2", "A")]⟩ [1, 2] demoId = .ok [(1, 2, "B")] := by
  simp [interactionList, ownEntries, generalEntries, pairEntries, insertEntry, before, keepLast, List.zipIdx, demoId,
    Outcome.ok_bind]

/-- C196, one entry per pair is false: a single interaction written with the greater block first stands beside the general
one. -/
theorem C196_twice_false :
    interactionList ⟨some "B", none, [("block_2", "block_1", "A")]⟩ [1, 2] demoId = .ok [(1, 2, "B"), (2, 1, "A")] := by
  simp [interactionList, ownEntries, generalEntries, pairEntries, insertEntry, before, keepLast, List.zipIdx, demoId,
    Outcome.ok_bind]

/-- C196: no interaction at all is undefined behaviour. -/
theorem C196_empty (ids : List Nat) (idOf : String → Option Nat) : interactionList ⟨none, none, []⟩ ids idOf = .ub := by
  have : generalEntries ⟨none, none, []⟩ ids = [] := by
    rw [List.eq_nil_iff_forall_not_mem]
    intro e he
    obtain ⟨_, _, _, _, _, _, _, _, h⟩ := (mem_generalEntries _ _ _).1 he
    rcases h with h | h
    · cases h.2
    · cases h.2
  rw [interactionList, ownEntries, Outcome.ok_bind, this]
  rfl

/-- C196: the interactions have no effect on the contact models, and so none on the forces. -/
theorem C196_ignored (compile : String → Option Body) (I I' : Interactions) (ids : List Nat) (idOf : String → Option Nat)
    (models : List (String × (String → Option Value))) (blocks : List (Nat × Option ℝ)) (L L' : List Entry)
    (ms ms' : List (Nat × Model)) (h : configure compile I ids idOf models blocks = .ok (L, ms))
    (h' : configure compile I' ids idOf models blocks = .ok (L', ms')) : ms = ms' := by
  have h1 := (configure_models h).2
  have h2 := (configure_models h').2
  clear h h'
  induction h1 generalizing ms' with
  | nil => cases h2; rfl
  | cons hr _ ih =>
    cases h2 with
    | cons hr' h3 =>
      rw [ih _ h3]
      congr 1
      have := hr.2.symm.trans hr'.2
      exact Prod.ext (hr.1.trans hr'.1.symm) (Outcome.ok.inj this)

/-- C196 is false: contact between blocks 1 and 2 although the only interaction is that of block 1 with itself.  Point 0 of
block 1 and point 2 of block 2 push each other apart. -/
theorem C196_uninvolved_false :
    ∃ ms out, configure (fun _ => none) ⟨none, none, [("block_1", "block_1", "B")]⟩ [1, 2] demoId [("B", demoList 2)]
        [(1, some 1), (2, some 1)] = .ok ([(1, 1, "B")], ms) ∧
      run 1 demoParts ms demoShip demoRound (demoVec demoY) (demoVec demoV) [] demoTarget = .ok [out] ∧
      (out.flatten.lookup 0).map (fun f => f 0) = some (-(18 / Real.pi)) := by
  have hI : interactionList ⟨none, none, [("block_1", "block_1", "B")]⟩ [1, 2] demoId = .ok [(1, 1, "B")] := by
    simp [interactionList, ownEntries, generalEntries, pairEntries, insertEntry, keepLast, List.zipIdx, demoId,
      Outcome.ok_bind]
  obtain ⟨ms, h⟩ := C195_defined (fun _ => none) ⟨none, none, [("block_1", "block_1", "B")]⟩ [1, 2] demoId "B" (demoList 2) []
    [(1, some 1), (2, some 1)] [(1, 1, "B")] 2 1 0 rfl rfl rfl (Or.inr ⟨rfl, rfl⟩) rfl (by simp) hI
  have h1 := C195_short_range_partial _ _ _ _ _ _ _ _ _ _ 2 1 0 rfl rfl rfl (Or.inr ⟨rfl, rfl⟩) h
  have hms : ms = [(1, ⟨⟨2, 1, 0, 1⟩, .fixed⟩), (2, ⟨⟨2, 1, 0, 1⟩, .fixed⟩)] := by
    cases h1 with
    | cons h2 h3 =>
      cases h3 with
      | cons h4 h5 =>
        cases h5
        obtain ⟨e1, δ, e2, e3⟩ := h2
        obtain ⟨e4, δ', e5, e6⟩ := h4
        cases e2
        cases e5
        congr 1
        · exact Prod.ext e1 e3
        · congr 1
          exact Prod.ext e4 e6
  have hM : ValidModels demoWorld ms := by
    rw [hms]
    refine ⟨by simp, ?_, ?_⟩
    · intro g hg
      simp only [demoWorld, List.mem_cons, List.not_mem_nil, or_false] at hg
      rcases hg with rfl | rfl | rfl <;> simp [demoWorld]
    · intro x hx
      simp only [List.mem_cons, List.not_mem_nil, or_false] at hx
      rcases hx with rfl | rfl <;> norm_num
  have hA : ∀ x ∈ ms, Asks x.2 ((fun (_ : Nat) (_ : ℝ) => (0 : ℝ)) x.1) := by
    rw [hms]
    intro x hx
    simp only [List.mem_cons, List.not_mem_nil, or_false] at hx
    rcases hx with rfl | rfl <;> exact fun t => rfl
  have hH : ∀ x ∈ ms, x.2.params.horizon ≠ 0 := by
    rw [hms]
    intro x hx
    simp only [List.mem_cons, List.not_mem_nil, or_false] at hx
    rcases hx with rfl | rfl <;> norm_num
  obtain ⟨outs, h2⟩ := C193_defined demoWorld demo_world ms hM (fun _ _ => 0) hA 1 one_ne_zero
    demoParts demoShip demo_start demoRound (demoTruth 0) demo_round _ _ (demo_vec _) (demo_vec _) [] [] trivial demoTarget
    demo_target hH demo_apart trivial
  have h3 := C193_run demoWorld demo_world ms hM (fun _ _ => 0) hA 1 one_ne_zero
    demoParts demoShip demo_start demoRound (demoTruth 0) demo_round _ _ (demo_vec _) (demo_vec _) [] [] trivial demoTarget
    demo_target outs h2
  simp only [demoTruth] at h2 h3
  refine ⟨ms, forcesOn demoWorld (paramsAt ms (fun _ _ => 0) 0) (unbonded demoWorld.bonds demoSearch) demoY demoV demoTarget, h,
    by rw [h2, h3]; rfl, ?_⟩
  rw [forcesOn_congr (P' := fun _ => ⟨2, 1, 0, 1⟩) (by
    intro g hg
    rw [hms]
    simp only [demoWorld, List.mem_cons, List.not_mem_nil, or_false] at hg
    rcases hg with rfl | rfl | rfl <;> rfl)]
  have hl : ((forcesOn demoWorld (fun _ => ⟨2, 1, 0, 1⟩) (unbonded demoWorld.bonds demoSearch) demoY demoV
      demoTarget).flatten.lookup 0) = some (forceOn demoWorld (fun _ => ⟨2, 1, 0, 1⟩) (unbonded demoWorld.bonds demoSearch)
        demoY demoV 0) := rfl
  rw [hl, Option.map_some, C193_twice demoWorld demo_world _ (unbonded demoWorld.bonds demoSearch) _ _
    (fun g hg k hk => demo_search g hg k (List.mem_filter.1 hk).1) (by decide)
    (by decide) 0 (by decide), show unbonded demoWorld.bonds demoSearch 0 = [2] by decide]
  have k1 : demoY 2 - demoY 0 = ![1, 0, 0] := by
    funext c; fin_cases c <;> simp [demoY]
  have k3 : len ![(1 : ℝ), 0, 0] = 1 := by simp [len]
  have k4 : unit ![(1 : ℝ), 0, 0] = ![1, 0, 0] := by rw [unit, k3, inv_one, one_smul]
  simp only [List.map_cons, List.map_nil, List.sum_cons, List.sum_nil, add_zero]
  rw [law]
  simp only
  rw [k1, k3, k4]
  have hs : strength ⟨2, 1, 0, 1⟩ 1 = 9 / Real.pi := by
    rw [strength, if_pos (by norm_num)]
    simp only
    congr 1
    · norm_num
    · norm_num
  rw [hs]
  simp only [Pi.smul_apply, Pi.add_apply, smul_eq_mul, demoWorld]
  simp
  ring

end Verif.Touch
