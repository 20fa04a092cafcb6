import Verif.Touch.Demo

/-! C193: the contact forces of a run. -/

noncomputable section

namespace Verif.Touch

open Verif Verif.Mech Verif.Neigh Verif.Contact
open scoped Classical

/-- C193: every contact force vector of a run holds, for every point, the sum over the contact pairs of the last search,
with the step's coordinates and velocities and the parameters of the points' blocks.  The decompositions of the contact manager
and its blocks do not appear on the right. -/
theorem C193_run (W : World) (hW : W.Valid) (models : List (Nat × Model)) (hM : ValidModels W models) (φ : Nat → ℝ → ℝ)
    (hφ : ∀ x ∈ models, Asks x.2 (φ x.1)) (freq : Int) (hf : freq ≠ 0) (parts : List Contact.Part) (M : Mothership)
    (hst : GoodStart W parts M) (r : Round) (t : Truth) (hr : GoodRound W t.search (parts.map Contact.Part.owned) r)
    (dy dv : Assembly.Dist V3) (hy : Carries W.ids t.y dy) (hv : Carries W.ids t.v dv) (xs : List StepInput)
    (ts : List Truth) (hs : GoodSteps W freq 1 (r.tgt.map Prod.fst) xs ts) (target : Assembly.Dist V3)
    (ht : ∀ part ∈ target, ∀ e ∈ part, e.1 ∈ W.ids) (outs : List (Assembly.Dist V3))
    (h : run freq parts models M r dy dv xs target = .ok outs) :
    outs = forcesOn W (paramsAt models φ 0) (unbonded W.bonds t.search) t.y t.v target ::
      expected W freq (paramsAt models φ) target 1 (unbonded W.bonds t.search) ts := by
  rw [run, Outcome.bind_eq_ok] at h
  obtain ⟨i, h1, h2⟩ := h
  rw [Outcome.bind_eq_ok] at h2
  obtain ⟨rest, h3, h4⟩ := h2
  cases h4
  obtain ⟨h5, h6⟩ := (initial_eq hW hM hφ hf hst hr hy hv target ht).1 i h1
  rw [h5, (steps_eq hW hM hφ hf target ht xs ts 1 _ _ i.1 h6 hs).1 rest h3]

/-- C193, definedness: a run goes through if the horizons are not zero and no contact pair coincides. -/
theorem C193_defined (W : World) (hW : W.Valid) (models : List (Nat × Model)) (hM : ValidModels W models) (φ : Nat → ℝ → ℝ)
    (hφ : ∀ x ∈ models, Asks x.2 (φ x.1)) (freq : Int) (hf : freq ≠ 0) (parts : List Contact.Part) (M : Mothership)
    (hst : GoodStart W parts M) (r : Round) (t : Truth) (hr : GoodRound W t.search (parts.map Contact.Part.owned) r)
    (dy dv : Assembly.Dist V3) (hy : Carries W.ids t.y dy) (hv : Carries W.ids t.v dv) (xs : List StepInput)
    (ts : List Truth) (hs : GoodSteps W freq 1 (r.tgt.map Prod.fst) xs ts) (target : Assembly.Dist V3)
    (ht : ∀ part ∈ target, ∀ e ∈ part, e.1 ∈ W.ids) (hh : ∀ x ∈ models, x.2.params.horizon ≠ 0)
    (h0 : Apart W (unbonded W.bonds t.search) t.y) (ha : AllApart W freq 1 (unbonded W.bonds t.search) ts) :
    ∃ outs, run freq parts models M r dy dv xs target = .ok outs := by
  obtain ⟨k1, k2⟩ := initial_eq hW hM hφ hf hst hr hy hv target ht
  obtain ⟨i, h1⟩ := k2 hh h0
  obtain ⟨h5, h6⟩ := k1 i h1
  obtain ⟨rest, h3⟩ := (steps_eq hW hM hφ hf target ht xs ts 1 _ _ i.1 h6 hs).2 hh ha
  exact ⟨_, by rw [run, h1, Outcome.ok_bind, h3, Outcome.ok_bind]⟩

example : ∃ outs, run 1 demoParts demoModels demoShip demoRound (demoVec demoY) (demoVec demoV) [demoStep 3] demoTarget =
      .ok outs ∧
    outs = forcesOn demoWorld (paramsAt demoModels demoFriction 0) (unbonded demoWorld.bonds demoSearch) demoY demoV demoTarget ::
      expected demoWorld 1 (paramsAt demoModels demoFriction) demoTarget 1 (unbonded demoWorld.bonds demoSearch)
        [demoTruth 3] := by
  obtain ⟨outs, h⟩ := C193_defined demoWorld demo_world demoModels demo_models demoFriction demo_asks 1 one_ne_zero demoParts
    demoShip demo_start demoRound (demoTruth 0) demo_round _ _ (demo_vec _) (demo_vec _) _ _ (demo_steps 3) demoTarget
    demo_target demo_horizon demo_apart (demo_allApart 3)
  exact ⟨outs, h, C193_run demoWorld demo_world demoModels demo_models demoFriction demo_asks 1 one_ne_zero demoParts
    demoShip demo_start demoRound (demoTruth 0) demo_round _ _ (demo_vec _) (demo_vec _) _ _ (demo_steps 3) demoTarget
    demo_target outs h⟩

/-- C193, independence: two runs with the same truth give the same forces, whatever the numbers of processors, the
decompositions at each search, and the order of the points. -/
theorem C193_independent (W : World) (hW : W.Valid) (models : List (Nat × Model)) (hM : ValidModels W models)
    (φ : Nat → ℝ → ℝ) (hφ : ∀ x ∈ models, Asks x.2 (φ x.1)) (freq : Int) (hf : freq ≠ 0) (t : Truth) (ts : List Truth)
    (target : Assembly.Dist V3) (ht : ∀ part ∈ target, ∀ e ∈ part, e.1 ∈ W.ids)
    (parts parts' : List Contact.Part) (M M' : Mothership) (hst : GoodStart W parts M) (hst' : GoodStart W parts' M')
    (r r' : Round) (hr : GoodRound W t.search (parts.map Contact.Part.owned) r)
    (hr' : GoodRound W t.search (parts'.map Contact.Part.owned) r')
    (dy dv dy' dv' : Assembly.Dist V3) (hy : Carries W.ids t.y dy) (hv : Carries W.ids t.v dv)
    (hy' : Carries W.ids t.y dy') (hv' : Carries W.ids t.v dv') (xs xs' : List StepInput)
    (hs : GoodSteps W freq 1 (r.tgt.map Prod.fst) xs ts) (hs' : GoodSteps W freq 1 (r'.tgt.map Prod.fst) xs' ts)
    (outs outs' : List (Assembly.Dist V3)) (h : run freq parts models M r dy dv xs target = .ok outs)
    (h' : run freq parts' models M' r' dy' dv' xs' target = .ok outs') : outs = outs' := by
  rw [C193_run W hW models hM φ hφ freq hf parts M hst r t hr dy dv hy hv xs ts hs target ht outs h,
    C193_run W hW models hM φ hφ freq hf parts' M' hst' r' t hr' dy' dv' hy' hv' xs' ts hs' target ht outs' h']

/-- All points on one processor. -/
def demoOne : List Contact.Part := [⟨[2, 0, 1], [2, 0, 1], [0, 1, 2, 1, 1], ⟨[0, 1], [1, 1]⟩, [0, 1, 2], [0, 1, 2, 1, 1]⟩]

/-- Load balancing on one processor. -/
def demoOneRound : Round where
  tgt := [([2, 0, 1], [2, 0, 1, 2, 1, 2, 2, 0, 2])]
  pick1 := fun _ _ => 0
  pick2 := fun _ _ => 0

example : ∃ outs, run 1 demoParts demoModels demoShip demoRound (demoVec demoY) (demoVec demoV) [] demoTarget = .ok outs ∧
    run 1 demoOne demoModels demoShip demoOneRound (demoVec demoY) (demoVec demoV) [] demoTarget = .ok outs := by
  have hp : GoodParts demoWorld demoWorld.bonds demoOne := by
    refine ⟨?_, by decide⟩
    intro c hc
    rw [demoOne, List.mem_singleton] at hc
    subst hc
    exact ⟨by decide, ⟨⟨[[], [2], [1]], by decide, .cons (by decide) (.cons (by decide) (.cons (by decide) .nil))⟩, by decide⟩,
      ⟨by decide, [[], [2], [1]], by decide, .cons (by decide) (.cons (by decide) (.cons (by decide) .nil))⟩, [], rfl, by decide⟩
  have hst : GoodStart demoWorld demoOne demoShip := ⟨hp, demo_vec _, demo_vec _, ⟨_, demo_vec _⟩, ⟨_, demo_vec _⟩⟩
  have h1 : ∀ (p : Nat) (x : List Nat × List Nat), demoOneRound.tgt[p]? = some x → ∀ g ∈ x.1,
      ∃ G, (demoOne.map Contact.Part.owned)[0]? = some G ∧ g ∈ G := by
    intro p x hp g hg
    match p, hp with
    | 0, hp => cases hp; exact ⟨_, rfl, hg⟩
  have hr : GoodRound demoWorld demoSearch (demoOne.map Contact.Part.owned) demoOneRound :=
    ⟨by decide, by decide, demo_search, h1, fun p x hp g hg _ => h1 p x hp g hg⟩
  obtain ⟨outs, h⟩ := C193_defined demoWorld demo_world demoModels demo_models demoFriction demo_asks 1 one_ne_zero demoParts
    demoShip demo_start demoRound (demoTruth 0) demo_round _ _ (demo_vec _) (demo_vec _) [] [] trivial demoTarget
    demo_target demo_horizon demo_apart trivial
  obtain ⟨outs', h'⟩ := C193_defined demoWorld demo_world demoModels demo_models demoFriction demo_asks 1 one_ne_zero demoOne
    demoShip hst demoOneRound (demoTruth 0) hr _ _ (demo_vec _) (demo_vec _) [] [] trivial demoTarget
    demo_target demo_horizon demo_apart trivial
  have := C193_independent demoWorld demo_world demoModels demo_models demoFriction demo_asks 1 one_ne_zero (demoTruth 0) []
    demoTarget demo_target _ _ _ _ demo_start hst _ _ demo_round hr _ _ _ _ (demo_vec _) (demo_vec _) (demo_vec _) (demo_vec _)
    [] [] trivial trivial outs outs' h h'
  exact ⟨outs, h, this ▸ h'⟩

theorem sum_ite (ids : List Nat) (hn : ids.Nodup) (i : Nat) (hi : i ∈ ids) (f : Nat → V3) :
    (ids.map fun g => if i = g then f g else 0).sum = f i := by
  induction ids with
  | nil => cases hi
  | cons a ids ih =>
    rw [List.nodup_cons] at hn
    rw [List.map_cons, List.sum_cons]
    by_cases h : i = a
    · subst h
      rw [if_pos rfl, List.sum_eq_zero, add_zero]
      intro x hx
      obtain ⟨g, hg, rfl⟩ := List.mem_map.1 hx
      rw [if_neg (by rintro rfl; exact hn.1 hg)]
    · rw [if_neg h, zero_add, ih hn.2 ((List.mem_cons.1 hi).resolve_left h)]

/-- C193, balance: the contact forces of all points of the simulation add up to zero, across processors and blocks, and also
if two blocks in contact have different parameters. -/
theorem C193_balanced (W : World) (hW : W.Valid) (P : Nat → Params) (cn : Nat → List Nat) (y v : Nat → V3)
    (hcn : ∀ g ∈ W.ids, ∀ k ∈ cn g, k ∈ W.ids) :
    (W.ids.map fun g => W.vol g • forceOn W P cn y v g).sum = 0 := by
  unfold forceOn
  have h1 : ∀ (g : Nat) (l : List Nat) (F : Nat → V3), W.vol g • (l.map F).sum = (l.map fun i => W.vol g • F i).sum := by
    intro g l F
    rw [List.smul_sum, List.map_map]; rfl
  simp only [h1]
  have swap : ∀ (A B : List Nat) (F : Nat → Nat → V3),
      (A.map fun a => (B.map fun b => F a b).sum).sum = (B.map fun b => (A.map fun a => F a b).sum).sum := by
    intro A B F
    induction A with
    | nil => simp
    | cons a A ih => simp only [List.map_cons, List.sum_cons]; rw [ih, List.sum_map_add]
  rw [swap]
  apply List.sum_eq_zero
  intro x hx
  obtain ⟨i, hi, rfl⟩ := List.mem_map.1 hx
  rw [swap]
  apply List.sum_eq_zero
  intro x hx
  obtain ⟨j, hj, rfl⟩ := List.mem_map.1 hx
  have h2 : ∀ g, W.vol g • pairTerm (P (W.block i)) ⟨y, v, W.vol⟩ g i j =
      (if i = g then (W.vol g * W.vol j) • law (P (W.block i)) ⟨y, v, W.vol⟩ i j else 0) +
      (if j = g then -((W.vol g * W.vol i) • law (P (W.block i)) ⟨y, v, W.vol⟩ i j) else 0) := by
    intro g
    unfold pairTerm
    rw [smul_sub]
    split <;> split <;> simp [smul_smul, sub_eq_add_neg]
  simp only [h2]
  rw [List.sum_map_add, sum_ite _ hW.nodup i hi (fun g => (W.vol g * W.vol j) • law (P (W.block i)) ⟨y, v, W.vol⟩ i j),
    sum_ite _ hW.nodup j (hcn i hi j hj) (fun g => -((W.vol g * W.vol i) • law (P (W.block i)) ⟨y, v, W.vol⟩ i j)),
    mul_comm (W.vol j)]
  simp

example : (demoWorld.ids.map fun g => demoWorld.vol g • forceOn demoWorld (paramsAt demoModels demoFriction 3)
    (unbonded demoWorld.bonds demoSearch) demoY demoV g).sum = 0 :=
  C193_balanced demoWorld demo_world _ _ _ _ fun g hg k hk => demo_search g hg k (List.mem_filter.1 hk).1

/-- C193, exchange: the force of a pair changes its sign if the two points change places. -/
theorem C193_exchange (P : Params) (F : Fields) (i j : Nat) : law P F j i = -law P F i j := by
  unfold law
  have h1 : F.y i - F.y j = -(F.y j - F.y i) := by abel
  have h2 : F.v j - F.v i = -(F.v i - F.v j) := by abel
  have h3 : ∀ d : V3, len (-d) = len d := by intro d; simp [len]
  have h5 : ∀ n w : V3, tangential (-n) (-w) = -tangential n w := by
    intro n w
    unfold tangential
    simp only [neg_dotProduct_neg, smul_neg, sub_neg_eq_add]
    abel
  rw [h1, h2, h3, unit_neg, h5, unit_neg]
  module

example : law ⟨2, 1, 1 / 2, 1⟩ ⟨demoY, demoV, fun _ => 1⟩ 2 0 = -law ⟨2, 1, 1 / 2, 1⟩ ⟨demoY, demoV, fun _ => 1⟩ 0 2 :=
  C193_exchange _ _ _ _

/-- C193, both visits: if contact neighbors are mutual and all blocks have the same parameters then the force density
of a point is twice the contact law, summed over its own contact neighbors; with the constant 9 of the law this is 18 times
the spring constant over `π δ⁴`. -/
theorem C193_twice (W : World) (hW : W.Valid) (P : Params) (cn : Nat → List Nat) (y v : Nat → V3)
    (hcn : ∀ g ∈ W.ids, ∀ k ∈ cn g, k ∈ W.ids) (hsym : ∀ i ∈ W.ids, ∀ j ∈ W.ids, j ∈ cn i ↔ i ∈ cn j)
    (hn : ∀ i ∈ W.ids, (cn i).Nodup) (g : Nat) (hg : g ∈ W.ids) :
    forceOn W (fun _ => P) cn y v g = ((cn g).map fun j => (2 * W.vol j) • law P ⟨y, v, W.vol⟩ g j).sum := by
  unfold forceOn pairTerm
  have h1 : ∀ i ∈ W.ids, ((cn i).map fun j => (if i = g then W.vol j • law P ⟨y, v, W.vol⟩ i j else 0) -
        (if j = g then W.vol i • law P ⟨y, v, W.vol⟩ i j else 0)).sum =
      (if g = i then ((cn i).map fun j => W.vol j • law P ⟨y, v, W.vol⟩ i j).sum else 0) +
        (if i ∈ cn g then W.vol i • law P ⟨y, v, W.vol⟩ g i else 0) := by
    intro i hi
    simp only [sub_eq_add_neg]
    rw [List.sum_map_add]
    congr 1
    · by_cases h : g = i
      · subst h; simp
      · simp [h, Ne.symm h]
    · by_cases h : i ∈ cn g
      · rw [if_pos h]
        have hgi : g ∈ cn i := (hsym g hg i hi).1 h
        have e : ∀ j, -(if j = g then W.vol i • law P ⟨y, v, W.vol⟩ i j else (0 : V3)) =
            if g = j then W.vol i • law P ⟨y, v, W.vol⟩ j i else 0 := by
          intro j
          by_cases hj : j = g
          · subst hj
            simp only [if_true]
            rw [C193_exchange P _ i j, smul_neg]
          · rw [if_neg hj, if_neg (Ne.symm hj), neg_zero]
        simp only [e]
        exact sum_ite (cn i) (hn i hi) g hgi (fun j => W.vol i • law P ⟨y, v, W.vol⟩ j i)
      · rw [if_neg h]
        apply List.sum_eq_zero
        intro x hx
        obtain ⟨j, hj, rfl⟩ := List.mem_map.1 hx
        rw [if_neg, neg_zero]
        rintro rfl
        exact h ((hsym j hg i hi).2 hj)
  rw [List.map_congr_left h1, List.sum_map_add,
    sum_ite W.ids hW.nodup g hg (fun i => ((cn i).map fun j => W.vol j • law P ⟨y, v, W.vol⟩ i j).sum)]
  have h2 : (W.ids.map fun i => if i ∈ cn g then W.vol i • law P ⟨y, v, W.vol⟩ g i else 0).sum =
      ((cn g).map fun i => W.vol i • law P ⟨y, v, W.vol⟩ g i).sum := by
    have h3 : ∀ l : List Nat, (l.map fun i => if i ∈ cn g then W.vol i • law P ⟨y, v, W.vol⟩ g i else 0).sum =
        ((l.filter fun i => i ∈ cn g).map fun i => W.vol i • law P ⟨y, v, W.vol⟩ g i).sum := by
      intro l
      induction l with
      | nil => rfl
      | cons a l ih =>
        rw [List.map_cons, List.sum_cons, ih, List.filter_cons]
        by_cases h : a ∈ cn g
        · simp [h]
        · simp [h]
    rw [h3]
    apply List.Perm.sum_eq
    apply List.Perm.map
    rw [List.perm_ext_iff_of_nodup (hW.nodup.filter _) (hn g hg)]
    intro a
    rw [List.mem_filter]
    simp only [decide_eq_true_eq]
    exact ⟨fun h => h.2, fun h => ⟨hcn g hg a h, h⟩⟩
  rw [h2, ← List.sum_map_add]
  congr 1
  apply List.map_congr_left
  intro j _
  rw [← add_smul, two_mul]

example : forceOn demoWorld (fun _ => ⟨2, 1, 0, 1⟩) (unbonded demoWorld.bonds demoSearch) demoY demoV 0 =
    ((unbonded demoWorld.bonds demoSearch 0).map fun j =>
      (2 * demoWorld.vol j) • law ⟨2, 1, 0, 1⟩ ⟨demoY, demoV, demoWorld.vol⟩ 0 j).sum :=
  C193_twice demoWorld demo_world _ _ _ _ (fun g hg k hk => demo_search g hg k (List.mem_filter.1 hk).1) (by decide)
    (by decide) 0 (by decide)

/-- C193, range: a point none of whose contact pairs is closer than the contact radius carries no contact force. -/
theorem C193_far (W : World) (P : Nat → Params) (cn : Nat → List Nat) (y v : Nat → V3) (g : Nat)
    (h : ∀ i ∈ W.ids, ∀ j ∈ cn i, i = g ∨ j = g → (P (W.block i)).radius ≤ len (y j - y i)) :
    forceOn W P cn y v g = 0 := by
  unfold forceOn
  apply List.sum_eq_zero
  intro x hx
  obtain ⟨i, hi, rfl⟩ := List.mem_map.1 hx
  apply List.sum_eq_zero
  intro x hx
  obtain ⟨j, hj, rfl⟩ := List.mem_map.1 hx
  unfold pairTerm
  by_cases h1 : i = g ∨ j = g
  · rw [C29_range (P (W.block i)) ⟨y, v, W.vol⟩ i j (h i hi j hj h1)]; simp
  · push Not at h1
    rw [if_neg h1.1, if_neg h1.2, sub_zero]

example : forceOn demoWorld (fun _ => ⟨1 / 2, 1, 0, 1⟩) (fun g => if g = 0 then [2] else []) demoY demoV 0 = 0 := by
  apply C193_far
  intro i _ j hj _
  by_cases h : i = 0
  · subst h
    rw [if_pos rfl, List.mem_singleton] at hj
    subst hj
    have : len (demoY 2 - demoY 0) = 1 := by simp [len, demoY]
    rw [this]
    norm_num
  · rw [if_neg h] at hj; cases hj

end Verif.Touch
