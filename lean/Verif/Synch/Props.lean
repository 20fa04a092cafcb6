import Verif.Synch.Lemmas

/-!
# Properties C201 to C203: the data of the blocks when a record is written
-/

namespace Verif.Synch

open Verif Verif.Assembly

variable {V : Type}

/-! ### C201 -/

theorem copied_iff (multiphysics : Bool) (m n : String) : CopiedTo multiphysics m n ↔ (m, n) ∈ table multiphysics := by
  constructor
  · intro h
    cases multiphysics <;> cases h <;> decide
  · intro h
    cases multiphysics
    · simp only [table, Bool.false_eq_true, if_false, List.mem_cons, List.not_mem_nil, Prod.mk.injEq, or_false] at h
      rcases h with ⟨rfl, rfl⟩ | ⟨rfl, rfl⟩ | ⟨rfl, rfl⟩ | ⟨rfl, rfl⟩ | ⟨rfl, rfl⟩ | ⟨rfl, rfl⟩ | ⟨rfl, rfl⟩ | ⟨rfl, rfl⟩ | ⟨rfl, rfl⟩ |
        ⟨rfl, rfl⟩ | ⟨rfl, rfl⟩ <;> constructor
    · simp only [table, if_true, List.mem_cons, List.not_mem_nil, Prod.mk.injEq, or_false] at h
      rcases h with ⟨rfl, rfl⟩ | ⟨rfl, rfl⟩ | ⟨rfl, rfl⟩ | ⟨rfl, rfl⟩ | ⟨rfl, rfl⟩ | ⟨rfl, rfl⟩ | ⟨rfl, rfl⟩ | ⟨rfl, rfl⟩ | ⟨rfl, rfl⟩ |
        ⟨rfl, rfl⟩ | ⟨rfl, rfl⟩ | ⟨rfl, rfl⟩ | ⟨rfl, rfl⟩ <;> constructor

theorem not_copied {multiphysics : Bool} {n : String} (h : ∀ m, ¬ CopiedTo multiphysics m n) : n ∉ (table multiphysics).map Prod.snd := by
  intro hn
  obtain ⟨⟨m, n'⟩, hm, rfl⟩ := List.mem_map.1 hn
  exact h m ((copied_iff _ _ _).2 hm)

/-- C201: after `synchDataManagers` every copy of a point, in any block and on any processor, as owned point or as
ghost, holds the value of the solver's vector. -/
theorem C201_vectors [Zero V] [Add V] (multiphysics registered : Bool) (scratch : Assembly.Dist V) (G : Globals V)
    (blocks : List (Block V)) (m n : String) (hc : CopiedTo multiphysics m n) (src : Assembly.Dist V)
    (hs : G m = some src) (hv : ∀ b ∈ blocks, ValidPick src (b.field n .np1)) (p g : Nat) (v : V)
    (hl : Assembly.lookup src p g = some v) :
    EveryCopy (synchDataManagers multiphysics registered scratch G blocks) n .np1 g v := by
  have ht := (copied_iff _ _ _).1 hc
  have hne : ¬ (n = hourglass ∧ Field.Step.np1 = Field.Step.np1) := by
    rintro ⟨rfl, -⟩
    exact hourglass_not_in_table multiphysics (List.mem_map.2 ⟨_, ht, rfl⟩)
  have hf := synch_field multiphysics registered scratch G blocks n .np1 hne
  intro b hb q w hw
  obtain ⟨b0, hb0, he⟩ := mem_of_map_eq _ _ _ _ hf b hb
  rw [importAll_same b0 G _ m n (table_nodup _) ht, hs] at he
  simp only at he
  rw [← he, copy_importInsert] at hw
  obtain ⟨v0, -, rfl⟩ := hw
  rw [hv b0 hb0 q g p (lookup_owns src p g v hl), hl]
  rfl

/-- C201: `synchDataManagers` changes nothing else, except the sum of the hourglass forces: other fields and steps keep
their data, and so do fields whose vector does not exist. -/
theorem C201_others [Zero V] [Add V] (multiphysics registered : Bool) (scratch : Assembly.Dist V) (G : Globals V)
    (blocks : List (Block V)) (n : String) (s : Field.Step) (hh : ¬ (n = hourglass ∧ s = .np1 ∧ registered = true))
    (h : s ≠ .np1 ∨ ∀ m, CopiedTo multiphysics m n → G m = none) :
    (synchDataManagers multiphysics registered scratch G blocks).map (·.field n s) = blocks.map (·.field n s) := by
  have key : ∀ b : Block V, (b.importAll G (table multiphysics)).field n s = b.field n s := by
    intro b
    by_cases hs : s = .np1
    · subst hs
      rcases h with h | h
      · exact absurd rfl h
      · by_cases ht : n ∈ (table multiphysics).map Prod.snd
        · obtain ⟨⟨m, n'⟩, hm, rfl⟩ := List.mem_map.1 ht
          rw [importAll_same b G _ m n' (table_nodup _) hm, h m ((copied_iff _ _ _).2 hm)]
        · exact importAll_other _ _ _ _ _ (Or.inl ht)
    · exact importAll_other _ _ _ _ _ (Or.inr hs)
  by_cases h2 : n = hourglass ∧ s = .np1
  · have hr : registered = false := by
      cases registered with
      | false => rfl
      | true => exact absurd ⟨h2.1, h2.2, rfl⟩ hh
    subst hr
    unfold synchDataManagers
    simp only [Bool.false_eq_true, if_false, List.map_map]
    apply List.map_congr_left
    intro b _
    exact key b
  · rw [synch_field _ _ _ _ _ _ _ h2]
    apply List.map_congr_left
    intro b _
    exact key b

/-- C201: no field gains or loses points. -/
theorem C201_places [Zero V] [Add V] (multiphysics registered : Bool) (scratch : Assembly.Dist V) (G : Globals V)
    (blocks : List (Block V)) (n : String) (s : Field.Step) :
    (synchDataManagers multiphysics registered scratch G blocks).map (fun b => (b.field n s).data.map ids) =
      blocks.map (fun b => (b.field n s).data.map ids) := by
  have key : ∀ b : Block V, ((b.importAll G (table multiphysics)).field n s).data.map ids =
      (b.field n s).data.map ids := by
    intro b
    by_cases ht : n ∈ (table multiphysics).map Prod.snd ∧ s = .np1
    · obtain ⟨ht, rfl⟩ := ht
      obtain ⟨⟨m, n'⟩, hm, rfl⟩ := List.mem_map.1 ht
      rw [importAll_same b G _ m n' (table_nodup _) hm]
      cases G m with
      | none => rfl
      | some src => exact ids_importInsert _ _
    · rw [importAll_other]
      by_cases h : n ∈ (table multiphysics).map Prod.snd
      · exact Or.inr fun hs => ht ⟨h, hs⟩
      · exact Or.inl h
  have push : ∀ bs : List (Block V), bs.map (fun b => (b.field n s).data.map ids) =
      (bs.map (·.field n s)).map (fun f => f.data.map ids) := by
    intro bs; rw [List.map_map]; rfl
  by_cases h2 : n = hourglass ∧ s = .np1
  · obtain ⟨rfl, rfl⟩ := h2
    cases registered with
    | true =>
      rw [push, push, synch_hourglass]
      unfold synchronize
      rw [List.map_map]
      apply List.map_congr_left
      intro f _
      exact ids_importInsert _ _
    | false =>
      rw [push, C201_others multiphysics false scratch G blocks hourglass .np1 (by simp)
        (Or.inr fun m hm => absurd (List.mem_map.2 ⟨_, (copied_iff _ _ _).1 hm, rfl⟩) (hourglass_not_in_table _)), ← push]
  · rw [push, synch_field _ _ _ _ _ _ _ h2, List.map_map]
    apply List.map_congr_left
    intro b _
    exact key b

theorem good_synch [Zero V] [Add V] (multiphysics registered : Bool) (scratch : Assembly.Dist V) (G : Globals V)
    (blocks : List (Block V)) (h : ∀ b ∈ blocks, Good scratch b) :
    ∀ b ∈ synchDataManagers multiphysics registered scratch G blocks, Good scratch b := by
  have himp : ∀ (b : Block V) src n s, Good scratch b → Good scratch (b.importData src n s) := by
    intro b src n s hb n' s'
    by_cases hc : n' = n ∧ s' = s
    · obtain ⟨rfl, rfl⟩ := hc
      rw [importData_same]
      cases src with
      | none => exact hb _ _
      | some g => exact hb _ _
    · rw [importData_other _ _ _ _ _ _ hc]; exact hb _ _
  have hall : ∀ (t : List (String × String)) (b : Block V), Good scratch b → Good scratch (b.importAll G t) := by
    intro t
    induction t with
    | nil => exact fun b hb => hb
    | cons e t ih => exact fun b hb => ih _ (himp b _ _ _ hb)
  intro b hb
  unfold synchDataManagers sumHourglass at hb
  cases registered with
  | false =>
    simp only [Bool.false_eq_true, if_false] at hb
    obtain ⟨b0, hb0, rfl⟩ := List.mem_map.1 hb
    exact hall _ _ (h b0 hb0)
  | true =>
    simp only [if_true] at hb
    obtain ⟨b1, hb1, rfl⟩ := List.mem_map.1 hb
    obtain ⟨b0, hb0, rfl⟩ := List.mem_map.1 hb1
    exact himp _ _ _ _ (hall _ _ (h b0 hb0))

theorem good_updateState (scratch : Assembly.Dist V) (blocks : List (Block V)) (h : ∀ b ∈ blocks, Good scratch b) :
    ∀ b ∈ blocks.map Block.updateState, Good scratch b := by
  intro b hb
  obtain ⟨b0, hb0, rfl⟩ := List.mem_map.1 hb
  intro n s
  cases s <;> exact h b0 hb0 _ _

/-- What C201 says about a record: the copies hold the values of the solver's vectors. -/
def Shows (multiphysics : Bool) (l : Leg V) (r : List (Block V)) : Prop :=
  ∀ m n src p g v, CopiedTo multiphysics m n → l.globals m = some src → Assembly.lookup src p g = some v →
    EveryCopy r n .np1 g v

theorem record_shows [Zero V] [Add V] (multiphysics registered : Bool) (scratch : Assembly.Dist V) (l : Leg V)
    (bs : List (Block V)) (hg : ∀ b ∈ l.work bs, Good scratch b) (hm : OnMap scratch l.globals) :
    Shows multiphysics l (record multiphysics registered scratch l bs) := by
  intro m n src p g v ht hs hl
  refine C201_vectors multiphysics registered scratch l.globals _ m n ht src hs ?_ p g v hl
  intro b hb
  exact validPick_ids scratch src (hm m src hs).symm _ (hg b hb n .np1)

theorem runSteps_shows [Zero V] [Add V] (multiphysics registered : Bool) (scratch : Assembly.Dist V)
    (ls : List (Leg V)) (bs : List (Block V)) (hb : ∀ b ∈ bs, Good scratch b)
    (hw : ∀ l ∈ ls, ∀ bs, (∀ b ∈ bs, Good scratch b) → ∀ b ∈ l.work bs, Good scratch b)
    (hm : ∀ l ∈ ls, OnMap scratch l.globals) :
    List.Forall₂ (Shows multiphysics) ls (runSteps multiphysics registered scratch ls bs).1 ∧
      ∀ b ∈ (runSteps multiphysics registered scratch ls bs).2, Good scratch b := by
  induction ls generalizing bs with
  | nil => exact ⟨.nil, hb⟩
  | cons l ls ih =>
    have hg := hw l List.mem_cons_self bs hb
    have h1 := ih ((record multiphysics registered scratch l bs).map Block.updateState)
      (good_updateState _ _ (good_synch _ _ _ _ _ hg))
      (fun l hl => hw l (List.mem_cons_of_mem _ hl)) (fun l hl => hm l (List.mem_cons_of_mem _ hl))
    rw [runSteps]
    exact ⟨.cons (record_shows _ _ _ _ _ hg (hm l List.mem_cons_self)) h1.1, h1.2⟩

/-- C201: in every record of an analysis with any number of solvers, every copy of every point holds displacement,
coordinates, velocity, force densities, temperatures and so on of the solver at that moment. -/
theorem C201_every_record [Zero V] [Add V] (multiphysics registered : Bool) (scratch : Assembly.Dist V)
    (ss : List (Solver V)) (bs : List (Block V)) (hb : ∀ b ∈ bs, Good scratch b)
    (hw : ∀ l ∈ legs ss, ∀ bs, (∀ b ∈ bs, Good scratch b) → ∀ b ∈ l.work bs, Good scratch b)
    (hm : ∀ l ∈ legs ss, OnMap scratch l.globals) :
    List.Forall₂ (fun l r => ∀ m n src p g v, CopiedTo multiphysics m n → l.globals m = some src →
        Assembly.lookup src p g = some v → EveryCopy r n .np1 g v)
      (legs ss) (executeSolvers multiphysics registered scratch ss bs) := by
  induction ss generalizing bs with
  | nil => exact .nil
  | cons s ss ih =>
    have hsub1 : ∀ l ∈ s.first :: s.steps, l ∈ legs (s :: ss) := by
      intro l hl
      exact List.mem_flatMap.2 ⟨s, List.mem_cons_self, hl⟩
    have hsub2 : ∀ l ∈ legs ss, l ∈ legs (s :: ss) := by
      intro l hl
      obtain ⟨s', hs', hl'⟩ := List.mem_flatMap.1 hl
      exact List.mem_flatMap.2 ⟨s', List.mem_cons_of_mem _ hs', hl'⟩
    have hg := hw s.first (hsub1 _ List.mem_cons_self) bs hb
    have h1 := runSteps_shows multiphysics registered scratch s.steps
      (record multiphysics registered scratch s.first bs) (good_synch _ _ _ _ _ hg)
      (fun l hl => hw l (hsub1 l (List.mem_cons_of_mem _ hl))) (fun l hl => hm l (hsub1 l (List.mem_cons_of_mem _ hl)))
    have h2 := ih (runSolver multiphysics registered scratch s bs).2 h1.2 (fun l hl => hw l (hsub2 l hl))
      (fun l hl => hm l (hsub2 l hl))
    rw [executeSolvers]
    have e : legs (s :: ss) = (s.first :: s.steps) ++ legs ss := rfl
    rw [e]
    exact List.rel_append (.cons (record_shows _ _ _ _ _ hg (hm _ (hsub1 _ List.mem_cons_self))) h1.1) h2

/-- A block of the example: the same data in every field. -/
def demoBlock (f : BlockField Int) : Block Int := ⟨fun _ _ => f⟩

/-- The vectors of the example: a displacement. -/
def demoVectors : Globals Int := fun m => if m = "u" then some [[(3, 100)], [(7, 200), (5, 300)]] else none

example : CopiedTo false "u" "Displacement" ∧ OnMap demoGlobal demoVectors ∧
    (∀ b ∈ [demoBlock demoA, demoBlock demoB], Good demoGlobal b) ∧
    Assembly.lookup [[(3, 100)], [(7, 200), (5, 300)]] 1 7 = some (200 : Int) ∧
    ((synchDataManagers false true demoGlobal demoVectors [demoBlock demoA, demoBlock demoB]).map
      fun b => (b.field "Displacement" .np1).data) =
        [some [[(3, 100), (7, 200)], [(5, 300)]], some [[], [(7, 200), (3, 100)]]] := by
  refine ⟨.displacement _, ?_, ?_, by decide, by decide +kernel⟩
  · intro m src h
    unfold demoVectors at h
    split at h
    · cases h; rfl
    · cases h
  · intro b hb n s
    simp only [List.mem_cons, List.not_mem_nil, or_false] at hb
    rcases hb with rfl | rfl
    · exact demo_valid _ List.mem_cons_self
    · exact demo_valid _ (List.mem_cons_of_mem _ List.mem_cons_self)

/-! ### C202 -/

/-- C202 (`_partial`: it is what a record should show only if the copies held contributions, which is the case after an
evaluation of the model; see `C202_next_solver`): every copy of the hourglass force density is the sum of all
contributions. -/
theorem C202_sum_partial [AddCommMonoid V] (multiphysics : Bool) (scratch : Assembly.Dist V) (G : Globals V)
    (blocks : List (Block V)) (hv : ∀ b ∈ blocks, ValidPick scratch (b.field hourglass .np1)) (p g : Nat)
    (ho : Owns scratch p g) :
    EveryCopy (synchDataManagers multiphysics true scratch G blocks) hourglass .np1 g
      (contributions (blocks.map (·.field hourglass .np1)) g).sum := by
  have hf := synch_hourglass multiphysics scratch G blocks
  have hv' : ∀ f ∈ blocks.map (·.field hourglass .np1), ValidPick scratch f := by
    intro f hf
    obtain ⟨b, hb, rfl⟩ := List.mem_map.1 hf
    exact hv b hb
  intro b hb q w hw
  have hmem : b.field hourglass .np1 ∈ synchronize scratch (blocks.map (·.field hourglass .np1)) :=
    hf ▸ List.mem_map.2 ⟨b, hb, rfl⟩
  obtain ⟨d, part, hd, hp, hm⟩ := hw
  exact (C13_every_copy_partial scratch _ hv').2 _ hmem d hd part (List.mem_of_getElem? hp) _ hm ⟨p, ho⟩

/-- The records around the beginning of a solver, for a field of two steps. -/
theorem next_solver [Zero V] [Add V] (multiphysics registered : Bool) (scratch : Assembly.Dist V)
    (s t : Solver V) (ss : List (Solver V)) (ls : List (Leg V)) (l1 l2 : Leg V) (hs : s.steps = ls ++ [l1, l2])
    (bs : List (Block V)) :
    ∃ pre bs1 bs2 rest,
      executeSolvers multiphysics registered scratch (s :: t :: ss) bs = pre ++
        record multiphysics registered scratch l1 bs1 ::
        record multiphysics registered scratch l2 ((record multiphysics registered scratch l1 bs1).map Block.updateState) ::
        record multiphysics registered scratch t.first bs2 :: rest ∧
      pre.length = ls.length + 1 ∧
      bs2 = (runSteps multiphysics registered scratch [l1, l2] bs1).2 := by
  let r0 := record multiphysics registered scratch s.first bs
  let bs1 := (runSteps multiphysics registered scratch ls r0).2
  let bs2 := (runSteps multiphysics registered scratch [l1, l2] bs1).2
  refine ⟨r0 :: (runSteps multiphysics registered scratch ls r0).1, bs1, bs2,
    (runSteps multiphysics registered scratch t.steps (record multiphysics registered scratch t.first bs2)).1 ++
      executeSolvers multiphysics registered scratch ss
        (runSolver multiphysics registered scratch t (runSolver multiphysics registered scratch s bs).2).2, ?_, ?_, rfl⟩
  · have e : runSolver multiphysics registered scratch s bs =
        (r0 :: (runSteps multiphysics registered scratch s.steps r0).1,
          (runSteps multiphysics registered scratch s.steps r0).2) := rfl
    rw [executeSolvers, executeSolvers, e, hs, runSteps_append]
    simp only [runSolver, List.cons_append, List.append_assoc]
    rfl
  · rw [List.length_cons, runSteps_length]

/-- C202: the first record of a solver that does not evaluate the model first repeats the summation on the data of the
last but one record of the solver before: what it shows is that sum times the number of copies of the point. -/
theorem C202_next_solver [AddCommMonoid V] (multiphysics : Bool) (scratch : Assembly.Dist V)
    (s t : Solver V) (ss : List (Solver V)) (ls : List (Leg V)) (l1 l2 : Leg V) (hs : s.steps = ls ++ [l1, l2])
    (hk : l2.Keeps hourglass .n) (ht : t.first.Keeps hourglass .np1) (bs : List (Block V))
    (hb : ∀ b ∈ bs, Good scratch b)
    (hw : ∀ l ∈ legs (s :: t :: ss), ∀ bs, (∀ b ∈ bs, Good scratch b) → ∀ b ∈ l.work bs, Good scratch b) :
    ∃ pre prev last r rest,
      executeSolvers multiphysics true scratch (s :: t :: ss) bs = pre ++ prev :: last :: r :: rest ∧
      pre.length = ls.length + 1 ∧
      ∀ p g, Owns scratch p g → ∃ total, EveryCopy prev hourglass .np1 g total ∧
        EveryCopy r hourglass .np1 g
          ((contributions (prev.map (·.field hourglass .np1)) g).length • total) := by
  have hmem : ∀ l ∈ s.first :: ls ++ [l1, l2], l ∈ legs (s :: t :: ss) := by
    intro l hl
    refine List.mem_flatMap.2 ⟨s, List.mem_cons_self, ?_⟩
    rw [hs]
    exact hl
  -- good blocks before the last two steps
  have hgood : ∀ (ls : List (Leg V)) (bs : List (Block V)), (∀ b ∈ bs, Good scratch b) →
      (∀ l ∈ ls, l ∈ legs (s :: t :: ss)) → ∀ b ∈ (runSteps multiphysics true scratch ls bs).2, Good scratch b := by
    intro ls
    induction ls with
    | nil => exact fun bs hb _ => hb
    | cons l ls ih =>
      intro bs hb hl
      rw [runSteps]
      exact ih _ (good_updateState _ _ (good_synch _ _ _ _ _ (hw l (hl l List.mem_cons_self) bs hb)))
        (fun l' hl' => hl l' (List.mem_cons_of_mem _ hl'))
  let r0 := record multiphysics true scratch s.first bs
  have hr0 : ∀ b ∈ r0, Good scratch b :=
    good_synch _ _ _ _ _ (hw s.first (hmem _ (by simp)) bs hb)
  let bs1 := (runSteps multiphysics true scratch ls r0).2
  have hbs1 : ∀ b ∈ bs1, Good scratch b := hgood ls r0 hr0 fun l hl => hmem l (by simp [hl])
  let r1 := record multiphysics true scratch l1 bs1
  have hr1 : ∀ b ∈ r1, Good scratch b := good_synch _ _ _ _ _ (hw l1 (hmem _ (by simp)) bs1 hbs1)
  have htwo := two_steps multiphysics true scratch l1 l2 bs1 hourglass hk
  let bs2 := (runSteps multiphysics true scratch [l1, l2] bs1).2
  have hbs2 : ∀ b ∈ bs2, Good scratch b := hgood [l1, l2] bs1 hbs1 fun l hl => hmem l (by
    rcases List.mem_cons.1 hl with rfl | hl
    · simp
    · simp only [List.mem_cons, List.not_mem_nil, or_false] at hl; subst hl; simp)
  refine ⟨r0 :: (runSteps multiphysics true scratch ls r0).1, r1,
    record multiphysics true scratch l2 (r1.map Block.updateState), record multiphysics true scratch t.first bs2,
    (runSteps multiphysics true scratch t.steps (record multiphysics true scratch t.first bs2)).1 ++
      executeSolvers multiphysics true scratch ss
        (runSolver multiphysics true scratch t (runSolver multiphysics true scratch s bs).2).2, ?_, ?_, ?_⟩
  · have e : runSolver multiphysics true scratch s bs = (r0 :: (runSteps multiphysics true scratch s.steps r0).1,
        (runSteps multiphysics true scratch s.steps r0).2) := rfl
    rw [executeSolvers, executeSolvers, e, hs, runSteps_append]
    simp only [runSolver, List.cons_append, List.append_assoc]
    rfl
  · rw [List.length_cons, runSteps_length]
  · intro p g ho
    have hv1 : ∀ b ∈ l1.work bs1, ValidPick scratch (b.field hourglass .np1) := fun b hb' =>
      hw l1 (hmem _ (by simp)) bs1 hbs1 b hb' _ _
    refine ⟨_, C202_sum_partial multiphysics scratch l1.globals (l1.work bs1) hv1 p g ho, ?_⟩
    have hv2 : ∀ b ∈ t.first.work bs2, ValidPick scratch (b.field hourglass .np1) := by
      intro b hb'
      obtain ⟨b0, hb0, he⟩ := mem_of_map_eq _ _ _ _ (ht bs2) b hb'
      rw [← he]
      exact hbs2 b0 hb0 _ _
    have h3 := C202_sum_partial multiphysics scratch t.first.globals (t.first.work bs2) hv2 p g ho
    have e1 : (t.first.work bs2).map (·.field hourglass .np1) =
        synchronize scratch ((l1.work bs1).map (·.field hourglass .np1)) := by
      rw [ht bs2]
      show bs2.map _ = _
      rw [htwo.1]
      exact synch_hourglass multiphysics scratch l1.globals (l1.work bs1)
    rw [e1] at h3
    have hv' : ∀ f ∈ (l1.work bs1).map (·.field hourglass .np1), ValidPick scratch f := by
      intro f hf
      obtain ⟨b, hb', rfl⟩ := List.mem_map.1 hf
      exact hv1 b hb'
    rw [C13_again_multiplies scratch _ hv' g ⟨p, ho⟩] at h3
    have e2 : (contributions (r1.map (·.field hourglass .np1)) g).length =
        (contributions ((l1.work bs1).map (·.field hourglass .np1)) g).length := by
      show (contributions ((synchDataManagers multiphysics true scratch l1.globals (l1.work bs1)).map _) g).length = _
      rw [synch_hourglass]
      rw [contributions_synchronize scratch _ hv' g ⟨p, ho⟩, List.length_replicate]
    rw [e2]
    exact h3

/-- The hourglass force of the example: a value in the owned copy of point 7 and one in its ghost. -/
def demoLeg (k : Int) : Leg Int where
  work := fun bs => bs.map fun b =>
    (b.put hourglass .np1 ⟨some [[(7, k)], [(7, 10 * k)]], fun _ _ => 1⟩).put "Dilatation" .np1
      ⟨some [[(7, k)], [(7, k)]], fun _ _ => 1⟩
  globals := fun m => if m = "u" then some [[], [(7, k)]] else none

/-- A solver that does not evaluate the model before its first record. -/
def demoStart (k : Int) : Leg Int where
  work := id
  globals := fun m => if m = "u" then some [[], [(7, k)]] else none

/-- Two processors; processor 1 owns point 7, processor 0 has a ghost. -/
def demoMap : Assembly.Dist Int := [[], [(7, 0)]]

/-- The block before the analysis. -/
def demoInitial : Block Int := ⟨fun _ _ => ⟨some [[(7, 0)], [(7, 0)]], fun _ _ => 1⟩⟩

/-- An explicit solver with three steps and a quasi-static one after it. -/
def demoAnalysis : List (Solver Int) := [⟨demoLeg 1, [demoLeg 2, demoLeg 3, demoLeg 4]⟩, ⟨demoStart 4, [demoLeg 5]⟩]

/-- The values of the owned copy in the records. -/
def demoValues (name : String) : List (Option (List Int)) :=
  (executeSolvers false true demoMap demoAnalysis [demoInitial]).map fun r =>
    (r.head?.bind fun b => (b.field name .np1).data).map fun d => (d.flatMap id).map Prod.snd

theorem demo_keeps (k : Int) (n : String) : (demoLeg k).Keeps n .n := by
  intro bs
  unfold demoLeg
  rw [List.map_map]
  apply List.map_congr_left
  intro b _
  simp [Block.put]

example : demoAnalysis = [⟨demoLeg 1, [demoLeg 2] ++ [demoLeg 3, demoLeg 4]⟩, ⟨demoStart 4, [demoLeg 5]⟩] ∧
    (demoLeg 4).Keeps hourglass .n ∧ (demoStart 4).Keeps hourglass .np1 ∧ Owns demoMap 1 7 :=
  ⟨rfl, demo_keeps 4 _, fun bs => rfl, ⟨_, rfl, by decide⟩⟩

/-- C202 is false as intended: the sums in the records of the first solver are 11, 22, 33 and 44, and the first record
of the second solver, at the same moment as the last one, shows 66. -/
theorem C202_wrong_first_record : demoValues hourglass =
    [some [11, 11], some [22, 22], some [33, 33], some [44, 44], some [66, 66], some [55, 55]] := by
  decide +kernel

/-! ### C203 -/

/-- C203: the first record of a solver that does not evaluate the model first shows, for a field of two steps that is not
copied from a vector, the data of the last but one record of the solver before; the data of the last record are those of
step N.  The fields copied from vectors are those of the solver at that moment, see `C201_every_record`. -/
theorem C203_next_solver [Zero V] [Add V] (multiphysics registered : Bool) (scratch : Assembly.Dist V)
    (s t : Solver V) (ss : List (Solver V)) (ls : List (Leg V)) (l1 l2 : Leg V) (hs : s.steps = ls ++ [l1, l2])
    (bs : List (Block V)) (n : String) (hn : ∀ m, ¬ CopiedTo multiphysics m n) (hh : n ≠ hourglass)
    (hk : l2.Keeps n .n) (ht : t.first.work = id) :
    ∃ pre prev last r rest,
      executeSolvers multiphysics registered scratch (s :: t :: ss) bs = pre ++ prev :: last :: r :: rest ∧
      pre.length = ls.length + 1 ∧
      r.map (·.field n .np1) = prev.map (·.field n .np1) ∧ r.map (·.field n .n) = last.map (·.field n .np1) := by
  obtain ⟨pre, bs1, bs2, rest, he, hp, hb2⟩ := next_solver multiphysics registered scratch s t ss ls l1 l2 hs bs
  refine ⟨pre, _, _, _, rest, he, hp, ?_, ?_⟩
  · unfold record
    rw [C201_others multiphysics registered scratch t.first.globals _ n .np1 (fun h => hh h.1)
      (Or.inr fun m hm => absurd hm (hn m)), ht]
    show bs2.map _ = _
    rw [hb2, (two_steps multiphysics registered scratch l1 l2 bs1 n hk).1]
    rfl
  · have := (two_steps multiphysics registered scratch l1 l2 bs1 n hk).2.2
    rw [← this, ← hb2]
    unfold record
    rw [C201_others multiphysics registered scratch t.first.globals _ n .n (fun h => by simp at h)
      (Or.inl (by simp)), ht]
    rfl

/-- C203: in the record of a leg such a field is what the work of the leg left. -/
theorem C203_record_partial [Zero V] [Add V] (multiphysics registered : Bool) (scratch : Assembly.Dist V) (l : Leg V)
    (bs : List (Block V)) (n : String) (s : Field.Step) (hn : ∀ m, ¬ CopiedTo multiphysics m n)
    (hh : n ≠ hourglass) :
    (record multiphysics registered scratch l bs).map (·.field n s) = (l.work bs).map (·.field n s) :=
  C201_others multiphysics registered scratch l.globals _ n s (fun h => hh h.1)
    (Or.inr fun m hm => absurd hm (hn m))

example : (∀ b m, ¬ CopiedTo b m "Dilatation") ∧
    "Dilatation" ≠ hourglass ∧ (demoLeg 4).Keeps "Dilatation" .n ∧ (demoStart 4).work = id :=
  ⟨fun b m h => absurd (List.mem_map (f := Prod.snd).2 ⟨_, (copied_iff b m _).1 h, rfl⟩) (show "Dilatation" ∉ (table b).map Prod.snd by cases b <;> decide), by decide, demo_keeps 4 _, rfl⟩

/-- C203 is false as intended: displacement and dilatation go together in all records but the first one of the second
solver, which has the displacement of step 4 and the dilatation of step 3. -/
theorem C203_wrong_first_record :
    demoValues "Displacement" = [some [1, 1], some [2, 2], some [3, 3], some [4, 4], some [4, 4], some [5, 5]] ∧
    demoValues "Dilatation" = [some [1, 1], some [2, 2], some [3, 3], some [4, 4], some [3, 3], some [5, 5]] := by
  constructor <;> decide +kernel

end Verif.Synch
