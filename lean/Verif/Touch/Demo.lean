import Verif.Touch.RunLemmas

/-! A small world for the examples: points 0 and 1 are bonded and in block 1, point 2 is in block 2.  First processor 0 owns
0 and 1, then processor 1 owns 1 and 2, then as at first. -/

noncomputable section

namespace Verif.Touch

open Verif Verif.Mech Verif.Neigh Verif.Contact
open scoped Classical

def demoWorld : World where
  ids := [0, 1, 2]
  block := fun g => if g = 2 then 2 else 1
  vol := fun _ => 1
  bonds := fun g => match g with
    | 0 => [1]
    | 1 => [0]
    | _ => []

theorem demo_world : demoWorld.Valid := by
  refine ⟨by decide, fun _ => zero_le_one, ?_⟩
  intro g hg k hk
  simp only [demoWorld, List.mem_cons, List.not_mem_nil, or_false] at hg
  rcases hg with rfl | rfl | rfl
  · rw [show demoWorld.bonds 0 = [1] from rfl] at hk
    simp [demoWorld, List.mem_singleton.1 hk]
  · rw [show demoWorld.bonds 1 = [0] from rfl] at hk
    simp [demoWorld, List.mem_singleton.1 hk]
  · cases hk

def demoParts : List Contact.Part :=
  [⟨[0, 1], [0, 1], [1, 1, 1, 0], ⟨[0, 1], [1, 1]⟩, [0, 1], [1, 1, 1, 0]⟩,
   ⟨[2], [2], [0], ⟨[], []⟩, [0], [0]⟩]

theorem demo_parts : GoodParts demoWorld demoWorld.bonds demoParts := by
  refine ⟨?_, by decide⟩
  intro c hc
  simp only [demoParts, List.mem_cons, List.not_mem_nil, or_false] at hc
  rcases hc with rfl | rfl
  · exact ⟨by decide, ⟨⟨[[1], [0]], by decide, .cons (by decide) (.cons (by decide) .nil)⟩, by decide⟩,
      ⟨by decide, [[1], [0]], by decide, .cons (by decide) (.cons (by decide) .nil)⟩, [], rfl, by decide⟩
  · exact ⟨by decide, ⟨⟨[[]], by decide, .cons (by decide) .nil⟩, by decide⟩,
      ⟨by decide, [[]], by decide, .cons (by decide) .nil⟩, [], rfl, by decide⟩

def demoSearch : Nat → List Nat
  | 0 => [1, 2]
  | 1 => [0, 2]
  | 2 => [0, 1]
  | _ => []

theorem demo_search : ∀ g ∈ demoWorld.ids, ∀ k ∈ demoSearch g, k ∈ demoWorld.ids := by decide

def demoRound : Round where
  tgt := [([0], [2, 1, 2]), ([1, 2], [2, 0, 2, 2, 0, 1])]
  pick1 := fun _ g => if g = 2 then 1 else 0
  pick2 := fun _ g => if g = 2 then 1 else 0

def demoBack : Round where
  tgt := [([0, 1], [2, 1, 2, 2, 0, 2]), ([2], [2, 0, 1])]
  pick1 := fun _ g => if g = 0 then 0 else 1
  pick2 := fun _ g => if g = 0 then 0 else 1

theorem demo_round : GoodRound demoWorld demoSearch (demoParts.map Contact.Part.owned) demoRound := by
  have h : ∀ (p : Nat) (x : List Nat × List Nat), demoRound.tgt[p]? = some x → ∀ g ∈ x.1,
      ∃ G, (demoParts.map Contact.Part.owned)[(if g = 2 then 1 else 0 : Nat)]? = some G ∧ g ∈ G := by
    intro p x hp g hg
    match p, hp with
    | 0, hp =>
      cases hp
      simp only [List.mem_cons, List.not_mem_nil, or_false] at hg
      subst hg
      exact ⟨[0, 1], rfl, by decide⟩
    | 1, hp =>
      cases hp
      simp only [List.mem_cons, List.not_mem_nil, or_false] at hg
      rcases hg with rfl | rfl
      · exact ⟨[0, 1], rfl, by decide⟩
      · exact ⟨[2], rfl, by decide⟩
  exact ⟨by decide, by decide, demo_search, h, fun p x hp g hg _ => h p x hp g hg⟩

theorem demo_back : GoodRound demoWorld demoSearch (demoRound.tgt.map Prod.fst) demoBack := by
  have h : ∀ (p : Nat) (x : List Nat × List Nat), demoBack.tgt[p]? = some x → ∀ g ∈ x.1,
      ∃ G, (demoRound.tgt.map Prod.fst)[(if g = 0 then 0 else 1 : Nat)]? = some G ∧ g ∈ G := by
    intro p x hp g hg
    match p, hp with
    | 0, hp =>
      cases hp
      simp only [List.mem_cons, List.not_mem_nil, or_false] at hg
      rcases hg with rfl | rfl
      · exact ⟨[0], rfl, by decide⟩
      · exact ⟨[1, 2], rfl, by decide⟩
    | 1, hp =>
      cases hp
      simp only [List.mem_cons, List.not_mem_nil, or_false] at hg
      subst hg
      exact ⟨[1, 2], rfl, by decide⟩
  exact ⟨by decide, by decide, demo_search, h, fun p x hp g hg _ => h p x hp g hg⟩

/-- Points 0, 1 and 2 at the corners of a right triangle. -/
def demoY : Nat → V3
  | 0 => ![0, 0, 0]
  | 1 => ![0, 0, 1]
  | _ => ![1, 0, 0]

/-- Point 0 slides along point 2. -/
def demoV : Nat → V3
  | 0 => ![0, 2, 0]
  | _ => ![0, 0, 0]

def demoTruth (t : ℝ) : Truth := ⟨demoSearch, demoY, demoV, t⟩

/-- A vector on the simulation's map. -/
def demoVec {V : Type} (f : Nat → V) : Assembly.Dist V := [[(0, f 0), (1, f 1)], [(2, f 2)]]

theorem demo_vec {V : Type} (f : Nat → V) : Carries demoWorld.ids f (demoVec f) := List.Perm.refl _

def demoShip : Mothership := ⟨demoVec demoWorld.block, demoVec demoWorld.vol, demoVec demoY, demoVec demoV⟩

theorem demo_start : GoodStart demoWorld demoParts demoShip :=
  ⟨demo_parts, demo_vec _, demo_vec _, ⟨_, demo_vec _⟩, ⟨_, demo_vec _⟩⟩

/-- Friction one half in block 1, and equal to the time in block 2. -/
def demoModels : List (Nat × Model) :=
  [(1, ⟨⟨2, 1, 1 / 2, 1⟩, .fixed⟩), (2, ⟨⟨2, 1, 0, 1⟩, .timed (some fun t _ => some t)⟩)]

def demoFriction (b : Nat) (t : ℝ) : ℝ := if b = 1 then 1 / 2 else t

theorem demo_models : ValidModels demoWorld demoModels := by
  refine ⟨by simp [demoModels], ?_, ?_⟩
  · intro g hg
    simp only [demoWorld, List.mem_cons, List.not_mem_nil, or_false] at hg
    rcases hg with rfl | rfl | rfl <;> simp [demoWorld, demoModels]
  · intro x hx
    simp only [demoModels, List.mem_cons, List.not_mem_nil, or_false] at hx
    rcases hx with rfl | rfl <;> norm_num

theorem demo_asks : ∀ x ∈ demoModels, Asks x.2 (demoFriction x.1) := by
  intro x hx
  simp only [demoModels, List.mem_cons, List.not_mem_nil, or_false] at hx
  rcases hx with rfl | rfl
  · intro t; simp [demoFriction]
  · intro t w; simp [demoFriction]

theorem demo_horizon : ∀ x ∈ demoModels, x.2.params.horizon ≠ 0 := by
  intro x hx
  simp only [demoModels, List.mem_cons, List.not_mem_nil, or_false] at hx
  rcases hx with rfl | rfl <;> norm_num

def demoStep (t : ℝ) : StepInput := ⟨demoBack, t, 0, demoVec demoY, demoVec demoV⟩

theorem demo_steps (t : ℝ) : GoodSteps demoWorld 1 1 (demoRound.tgt.map Prod.fst) [demoStep t] [demoTruth t] :=
  ⟨fun _ => demo_back, demo_vec _, demo_vec _, rfl, trivial⟩

theorem demo_apart : Apart demoWorld (unbonded demoWorld.bonds demoSearch) demoY := by
  have a : demoY 2 ≠ demoY 0 := fun h => by simpa [demoY] using congrFun h 0
  have b : demoY 2 ≠ demoY 1 := fun h => by simpa [demoY] using congrFun h 0
  intro i hi j hj
  simp only [demoWorld, List.mem_cons, List.not_mem_nil, or_false] at hi
  rcases hi with rfl | rfl | rfl
  · rw [show unbonded demoWorld.bonds demoSearch 0 = [2] by decide] at hj
    rw [List.mem_singleton.1 hj]; exact a
  · rw [show unbonded demoWorld.bonds demoSearch 1 = [2] by decide] at hj
    rw [List.mem_singleton.1 hj]; exact b
  · rw [show unbonded demoWorld.bonds demoSearch 2 = [0, 1] by decide] at hj
    simp only [List.mem_cons, List.not_mem_nil, or_false] at hj
    rcases hj with rfl | rfl
    · exact a.symm
    · exact b.symm

theorem demo_allApart (t : ℝ) :
    AllApart demoWorld 1 1 (unbonded demoWorld.bonds demoSearch) [demoTruth t] := by
  refine ⟨?_, trivial⟩
  rw [neighborsAtStep, if_pos (by simp)]
  exact demo_apart

def demoTarget : Assembly.Dist V3 := demoVec fun _ => 0

theorem demo_target : ∀ part ∈ demoTarget, ∀ e ∈ part, e.1 ∈ demoWorld.ids := by
  intro part hp e he
  simp only [demoTarget, demoVec, List.mem_cons, List.not_mem_nil, or_false] at hp
  rcases hp with rfl | rfl
  · simp only [List.mem_cons, List.not_mem_nil, or_false] at he
    rcases he with rfl | rfl <;> simp [demoWorld]
  · simp only [List.mem_cons, List.not_mem_nil, or_false] at he
    subst he; simp [demoWorld]

end Verif.Touch
