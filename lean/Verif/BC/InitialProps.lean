import Verif.BC.Props

/-!
# Properties C67 (initial conditions), C68 (prescribed temperatures) and C69 (thermal flux)
-/

namespace Verif.BC

open Verif

/-! ## Initial conditions: helper lemmas -/

/-- The vector an initial condition sets. -/
def initialTarget : BCType → Option Target
  | .initialDisplacement => some .u
  | .initialVelocity => some .v
  | .initialTemperature => some .temperature
  | .initialFluidPressure => some .fluidPressureU
  | _ => none

/-- The initial conditions one definition contributes. -/
def initialOf (d : Definition) : List Condition :=
  match initialTarget d.type with
  | some t => [obj d t .dirichlet]
  | none => []

theorem addDefinition_initial {cs cs' : Conditions} {d : Definition}
    (h : addDefinition cs d = .ok cs') :
    cs'.initial = cs.initial ++ initialOf d ∧ (∀ c ∈ initialOf d, c.coord < dim c.target) := by
  unfold addDefinition at h
  cases ht : d.type <;> rw [ht] at h <;> simp only [initialOf, initialTarget, ht]
  case prescribedDisplacement | prescribedFluidPressure | prescribedTemperature =>
    obtain ⟨c, hc, h⟩ := Outcome.bind_eq_ok.mp h
    obtain ⟨c', hc', h⟩ := Outcome.bind_eq_ok.mp h
    have := ok_inj h
    subst this
    simp
  case thermalFlux | bodyForce =>
    obtain ⟨c, hc, h⟩ := Outcome.bind_eq_ok.mp h
    have := ok_inj h
    subst this
    simp
  all_goals
    obtain ⟨c, hc, h⟩ := Outcome.bind_eq_ok.mp h
    obtain ⟨e, l⟩ := construct_ok hc
    have := ok_inj h
    subst this; subst e
    refine ⟨rfl, ?_⟩
    intro c hc
    simp only [List.mem_cons, List.not_mem_nil, or_false] at hc
    subst hc; exact l

theorem makeConditions_initial {ds : List Definition} {cs : Conditions}
    (h : makeConditions ds = .ok cs) :
    cs.initial = ds.flatMap initialOf ∧ ∀ c ∈ cs.initial, c.coord < dim c.target := by
  have key : ∀ (ds : List Definition) (c0 c1 : Conditions), ds.foldlM addDefinition c0 = .ok c1 →
      c1.initial = c0.initial ++ ds.flatMap initialOf ∧
      ∀ c ∈ ds.flatMap initialOf, c.coord < dim c.target := by
    intro ds
    induction ds with
    | nil => intro c0 c1 h; rw [← ok_inj h]; simp
    | cons d ds ih =>
      intro c0 c1 h
      obtain ⟨c2, h1, h2⟩ := foldlM_cons_ok.mp h
      obtain ⟨a1, a2⟩ := addDefinition_initial h1
      obtain ⟨b1, b2⟩ := ih c2 c1 h2
      refine ⟨by rw [b1, a1, List.flatMap_cons, List.append_assoc], ?_⟩
      intro c hc
      rw [List.flatMap_cons, List.mem_append] at hc
      exact hc.elim (a2 c) (b2 c)
  obtain ⟨a, b⟩ := key ds {} cs h
  have a' : cs.initial = ds.flatMap initialOf := by simpa using a
  exact ⟨a', by rw [a']; exact b⟩

/-- A value function evaluated at a local node. -/
def valueAt (C : Ctx) (f : ℝ → ℝ → ℝ → ℝ → Option ℝ) (l : Nat) (t : ℝ) : Option ℝ :=
  f (C.x (l * 3)) (C.x (l * 3 + 1)) (C.x (l * 3 + 2)) t

theorem valueAt_of_call {C : Ctx} {c : Condition} {l : Nat} {t r : ℝ}
    (h : callFunction C c l t = .ok r) : valueAt C c.value l t = some r := by
  unfold callFunction at h
  unfold valueAt
  split at h
  · rename_i v hv; rw [hv, ok_inj h]
  · exact absurd h (by simp)

theorem dirichlet_value {C : Ctx} {c : Condition} (hk : c.kind = .dirichlet) {u : Nat → ℝ}
    {tc tp r : ℝ} {l : Nat} (h : nodeValue C c u tc tp l = .ok r) :
    valueAt C c.value l tc = some r := by
  unfold nodeValue at h
  rw [hk] at h
  obtain ⟨p, hp, h⟩ := Outcome.bind_eq_ok.mp h
  unfold evaluateParser at hp
  obtain ⟨prev, h1, hp⟩ := Outcome.bind_eq_ok.mp hp
  obtain ⟨cur, h2, hp⟩ := Outcome.bind_eq_ok.mp hp
  rw [← ok_inj h, ← ok_inj hp]
  exact valueAt_of_call h2

theorem write_hit (s : Vecs) (t : Target) (i : Nat) (r : ℝ) : write s t i r t i = r := by
  unfold write; rw [if_pos ⟨rfl, rfl⟩]

theorem write_miss (s : Vecs) (t : Target) (i : Nat) (r : ℝ) {t' : Target} {i' : Nat}
    (h : ¬ (t' = t ∧ i' = i)) : write s t i r t' i' = s t' i' := by
  unfold write; rw [if_neg h]

/-- A Dirichlet condition over its node list. -/
theorem dirichlet_nodes {C : Ctx} {c : Condition} (hk : c.kind = .dirichlet) {tc tp : ℝ}
    (hc : c.coord < dim c.target) (nodes : List Nat) : ∀ s s' : Vecs,
    nodes.foldlM (applyNode C c tc tp) s = .ok s' →
    (∀ g l, g ∈ nodes → lid C.owned g = some l →
      valueAt C c.value l tc = some (s' c.target (l * dim c.target + c.coord))) ∧
    (∀ t i, (∀ g l, g ∈ nodes → lid C.owned g = some l → c.target = t →
      i ≠ l * dim c.target + c.coord) → s' t i = s t i) := by
  induction nodes using List.reverseRecOn with
  | nil =>
    intro s s' h
    have := ok_inj h
    subst this
    simp
  | append_singleton nodes g0 ih =>
    intro s s' h
    obtain ⟨s1, h1, h2⟩ := foldlM_append_ok.mp h
    obtain ⟨i1, i2⟩ := ih s s1 h1
    obtain ⟨s2, h3, h4⟩ := foldlM_cons_ok.mp h2
    have := ok_inj h4
    subst this
    rcases applyNode_ok h3 with ⟨hn, e⟩ | ⟨l0, r0, hl0, hr0, e⟩
    · subst e
      refine ⟨?_, ?_⟩
      · intro g l hg hl
        rcases List.mem_append.mp hg with hg | hg
        · exact i1 g l hg hl
        · rw [List.mem_singleton] at hg; subst hg
          rw [hn] at hl; exact absurd hl (by simp)
      · intro t i hno
        exact i2 t i fun g l hg hl => hno g l (List.mem_append_left _ hg) hl
    · subst e
      have hv0 := dirichlet_value hk hr0
      refine ⟨?_, ?_⟩
      · intro g l hg hl
        by_cases e : l = l0
        · subst e; rw [write_hit]; exact hv0
        · have hne : ¬ (c.target = c.target ∧ l * dim c.target + c.coord =
              l0 * dim c.target + c.coord) := by
            rintro ⟨_, h⟩
            have hd : 0 < dim c.target := by omega
            exact e (Nat.eq_of_mul_eq_mul_right hd (by omega))
          rw [write_miss _ _ _ _ hne]
          rcases List.mem_append.mp hg with hg | hg
          · exact i1 g l hg hl
          · rw [List.mem_singleton] at hg; subst hg
            rw [hl0] at hl; injection hl with hl; exact absurd hl.symm e
      · intro t i hno
        rw [write_miss]
        · exact i2 t i fun g l hg hl => hno g l (List.mem_append_left _ hg) hl
        · rintro ⟨rfl, rfl⟩
          exact hno g0 l0 (List.mem_append_right _ (List.mem_singleton_self _)) hl0 rfl rfl

theorem dirichlet_apply {C : Ctx} {c : Condition} (hk : c.kind = .dirichlet) {tc tp : ℝ}
    (hc : c.coord < dim c.target) {s s' : Vecs} (h : apply C tc tp s c = .ok s') :
    (∀ t i l, Hits C c t i l → valueAt C c.value l tc = some (s' t i)) ∧
    (∀ t i, (∀ l, ¬ Hits C c t i l) → s' t i = s t i) := by
  unfold apply at h
  have hs : skips c tc tp = false := by unfold skips; rw [hk]
  rw [hs] at h
  simp only [Bool.false_eq_true, if_false] at h
  unfold applyToSet at h
  split at h
  · exact absurd h (by simp)
  · rename_i nodes hn
    obtain ⟨a1, a2⟩ := dirichlet_nodes hk hc nodes s s' h
    refine ⟨?_, ?_⟩
    · rintro t i l ⟨ht, hi, nodes', g, hs', hg, hl⟩
      rw [hn] at hs'
      injection hs' with hs'
      subst hs'; subst ht; subst hi
      exact a1 g l hg hl
    · intro t i hno
      refine a2 t i ?_
      intro g l hg hl ht hi
      subst ht
      exact hno l ⟨rfl, hi, nodes, g, hn, hg, hl⟩

/-- The vectors that only follow others. -/
def Derived (t : Target) : Prop := t = .y ∨ t = .fluidPressureY

theorem afterInitial_other (C : Ctx) (ty : BCType) (s : Vecs) {t : Target} (h : ¬ Derived t) :
    afterInitial C ty s t = s t := by
  funext i
  unfold afterInitial
  split
  · exact if_neg fun e => h (.inl e)
  · exact if_neg fun e => h (.inr e)
  · rfl

theorem mem_initialOf {d : Definition} {c : Condition} (h : c ∈ initialOf d) :
    ∃ t, initialTarget d.type = some t ∧ c = obj d t .dirichlet := by
  unfold initialOf at h
  split at h
  · rename_i t ht
    rw [List.mem_singleton] at h
    exact ⟨t, ht, h⟩
  · exact absurd h (by simp)

theorem initialTarget_not_derived {ty : BCType} {t : Target} (h : initialTarget ty = some t) :
    ¬ Derived t := by
  cases ty <;> simp [initialTarget] at h <;> subst h <;> simp [Derived]

theorem initial_hits {C : Ctx} {d : Definition} {t t' : Target} (ht : initialTarget d.type = some t)
    {g l k : Nat} (hl : lid C.owned g = some l) (hk : k < dim t) {l' : Nat}
    (hc : (d.coord : Nat) < dim t')
    (h : Hits C (obj d t' .dirichlet) t (l * dim t + k) l') : Covers C.sets d g k := by
  obtain ⟨h1, hi, nodes, g', hs, hg', hl'⟩ := h
  have h1 : t' = t := h1
  subst h1
  have hi' : l * dim t' + k = l' * dim t' + (d.coord : Nat) := hi
  have hd : 0 < dim t' := by omega
  have e1 : l = l' := by
    have := congrArg (· / dim t') hi'
    rw [Nat.mul_comm l, Nat.mul_comm l', Nat.mul_add_div hd, Nat.mul_add_div hd,
      Nat.div_eq_of_lt hk, Nat.div_eq_of_lt hc] at this
    omega
  subst e1
  have : g' = g := lid_inj hl' hl
  subst this
  exact ⟨by omega, nodes, hs, hg'⟩

/-- The step of `applyInitial`. -/
noncomputable def initStep (C : Ctx) (s : Vecs) (c : Condition) : Outcome Vecs := do
  let s' ← apply C 0 0 s c
  .ok (afterInitial C c.type s')

theorem applyInitial_eq (C : Ctx) (cs : List Condition) (s : Vecs) :
    applyInitial C cs s = cs.foldlM (initStep C) s := rfl

theorem initial_main (C : Ctx) : ∀ (ds : List Definition)
    (_ : ∀ c ∈ ds.flatMap initialOf, c.coord < dim c.target) (s s' : Vecs),
    (ds.flatMap initialOf).foldlM (initStep C) s = .ok s' →
    (∀ t i, ¬ Derived t → (∀ d ∈ ds, initialTarget d.type = some t →
        ∀ l, ¬ Hits C (obj d t .dirichlet) t i l) → s' t i = s t i) ∧
    (∀ pre d post t i l, ds = pre ++ d :: post → initialTarget d.type = some t →
      Hits C (obj d t .dirichlet) t i l →
      (∀ d' ∈ post, initialTarget d'.type = some t → ∀ l', ¬ Hits C (obj d' t .dirichlet) t i l') →
      valueAt C d.value l 0 = some (s' t i)) ∧
    ((∀ i, s .y i = C.x i + s .u i) → ∀ i, s' .y i = C.x i + s' .u i) ∧
    ((∃ d ∈ ds, d.type = .initialDisplacement) → ∀ i, s' .y i = C.x i + s' .u i) ∧
    ((∀ i, s .fluidPressureY i = s .fluidPressureU i) →
      ∀ i, s' .fluidPressureY i = s' .fluidPressureU i) ∧
    ((∃ d ∈ ds, d.type = .initialFluidPressure) →
      ∀ i, s' .fluidPressureY i = s' .fluidPressureU i) := by
  intro ds
  induction ds with
  | nil =>
    intro _ s s' h
    have := ok_inj h
    subst this
    refine ⟨fun _ _ _ _ => rfl, ?_, fun h => h, by simp, fun h => h, by simp⟩
    intro pre d post t i l e
    exact absurd e (by simp)
  | cons d0 ds ih =>
    intro hc s s' h
    rw [List.flatMap_cons] at h
    obtain ⟨s1, h1, h2⟩ := foldlM_append_ok.mp h
    obtain ⟨i1, i2, i3, i4, i5, i6⟩ := ih (fun c hc' => hc c (by
      rw [List.flatMap_cons]; exact List.mem_append_right _ hc')) s1 s' h2
    -- the first definition
    have hstep : (∀ t i, ¬ Derived t → (initialTarget d0.type = some t →
          ∀ l, ¬ Hits C (obj d0 t .dirichlet) t i l) → s1 t i = s t i) ∧
        (∀ t i l, initialTarget d0.type = some t → Hits C (obj d0 t .dirichlet) t i l →
          valueAt C d0.value l 0 = some (s1 t i)) ∧
        ((d0.type = .initialDisplacement ∨ ∀ i, s .y i = C.x i + s .u i) →
          ∀ i, s1 .y i = C.x i + s1 .u i) ∧
        ((d0.type = .initialFluidPressure ∨ ∀ i, s .fluidPressureY i = s .fluidPressureU i) →
          ∀ i, s1 .fluidPressureY i = s1 .fluidPressureU i) := by
      cases ht : initialTarget d0.type with
      | none =>
        have e : initialOf d0 = [] := by unfold initialOf; rw [ht]
        rw [e] at h1
        have := ok_inj h1
        subst this
        refine ⟨fun _ _ _ _ => rfl, fun t i l ht' => by simp at ht', ?_, ?_⟩
        · rintro (h | h)
          · rw [h] at ht; simp [initialTarget] at ht
          · exact h
        · rintro (h | h)
          · rw [h] at ht; simp [initialTarget] at ht
          · exact h
      | some t0 =>
        have e : initialOf d0 = [obj d0 t0 .dirichlet] := by unfold initialOf; rw [ht]
        have hcoord : (obj d0 t0 .dirichlet).coord < dim (obj d0 t0 .dirichlet).target :=
          hc _ (by rw [List.flatMap_cons, e]; simp)
        rw [e] at h1
        obtain ⟨s2, h3, h4⟩ := foldlM_cons_ok.mp h1
        have := ok_inj h4
        subst this
        unfold initStep at h3
        obtain ⟨s3, h5, h6⟩ := Outcome.bind_eq_ok.mp h3
        have e2 := ok_inj h6
        subst e2
        obtain ⟨a1, a2⟩ := dirichlet_apply rfl hcoord h5
        have hnd := initialTarget_not_derived ht
        have keep : ∀ t, t ≠ t0 → s3 t = s t := by
          intro t hne
          funext i
          exact a2 t i fun l hh => hne hh.1.symm
        refine ⟨?_, ?_, ?_, ?_⟩
        · intro t i hD hno
          rw [afterInitial_other _ _ _ hD]
          refine a2 t i fun l hh => ?_
          have : t0 = t := hh.1
          subst this
          exact hno rfl l hh
        · intro t i l ht' hh
          injection ht' with ht'
          subst ht'
          rw [afterInitial_other _ _ _ hnd]
          exact a1 _ _ _ hh
        · intro hor i
          show afterInitial C d0.type s3 .y i = C.x i + afterInitial C d0.type s3 .u i
          cases hty : d0.type <;> rw [hty] at ht <;> simp [initialTarget] at ht
          case initialDisplacement => simp [afterInitial]
          all_goals
            subst ht
            simp only [hty, reduceCtorEq, false_or] at hor
            simp [afterInitial, keep, hor]
        · intro hor i
          show afterInitial C d0.type s3 .fluidPressureY i = afterInitial C d0.type s3 .fluidPressureU i
          cases hty : d0.type <;> rw [hty] at ht <;> simp [initialTarget] at ht
          case initialFluidPressure => simp [afterInitial]
          all_goals
            subst ht
            simp only [hty, reduceCtorEq, false_or] at hor
            simp [afterInitial, keep, hor]
    obtain ⟨b1, b2, b3, b4⟩ := hstep
    refine ⟨?_, ?_, ?_, ?_, ?_, ?_⟩
    · intro t i hD hno
      rw [i1 t i hD fun d hd => hno d (List.mem_cons_of_mem _ hd),
        b1 t i hD (hno d0 (List.mem_cons_self ..))]
    · intro pre d post t i l e ht hh hpost
      cases pre with
      | nil =>
        rw [List.nil_append, List.cons.injEq] at e
        obtain ⟨rfl, rfl⟩ := e
        rw [i1 t i (initialTarget_not_derived ht) hpost]
        exact b2 t i l ht hh
      | cons p pre =>
        rw [List.cons_append, List.cons.injEq] at e
        exact i2 pre d post t i l e.2 ht hh hpost
    · intro hy; exact i3 (b3 (.inr hy))
    · rintro ⟨d, hd, hty⟩
      rcases List.mem_cons.mp hd with rfl | hd
      · exact i3 (b3 (.inl hty))
      · exact i4 ⟨d, hd, hty⟩
    · intro hy; exact i5 (b4 (.inr hy))
    · rintro ⟨d, hd, hty⟩
      rcases List.mem_cons.mp hd with rfl | hd
      · exact i5 (b4 (.inl hty))
      · exact i6 ⟨d, hd, hty⟩

/-! ## C67 -/

/-- **C67** After the initial conditions have been applied: component `k` of the displacement,
velocity, temperature or fluid pressure (vector `t`) of every owned node is the value at time zero
of the last condition of that kind covering it, and unchanged if there is none; if there is a
condition on the displacement, or positions were right before, positions are reference positions plus
displacements; likewise for the fluid pressure. -/
theorem initial_conditions_exact (C : Ctx) (ds : List Definition) (cs : Conditions)
    (hcs : makeConditions ds = .ok cs) (s s' : Vecs) (h : applyInitial C cs.initial s = .ok s') :
    (∀ t g l k, ¬ Derived t → lid C.owned g = some l → k < dim t →
      ((∀ d ∈ ds, initialTarget d.type = some t → ¬ Covers C.sets d g k) →
        s' t (l * dim t + k) = s t (l * dim t + k)) ∧
      (∀ pre d post, ds = pre ++ d :: post → initialTarget d.type = some t → Covers C.sets d g k →
        (∀ d' ∈ post, initialTarget d'.type = some t → ¬ Covers C.sets d' g k) →
        d.value (C.x (l * 3)) (C.x (l * 3 + 1)) (C.x (l * 3 + 2)) 0 = some (s' t (l * dim t + k)))) ∧
    ((∃ d ∈ ds, d.type = .initialDisplacement) ∨ (∀ i, s .y i = C.x i + s .u i) →
      ∀ i, s' .y i = C.x i + s' .u i) ∧
    ((∃ d ∈ ds, d.type = .initialFluidPressure) ∨ (∀ i, s .fluidPressureY i = s .fluidPressureU i) →
      ∀ i, s' .fluidPressureY i = s' .fluidPressureU i) := by
  obtain ⟨e, hc⟩ := makeConditions_initial hcs
  rw [applyInitial_eq, e] at h
  rw [e] at hc
  obtain ⟨i1, i2, i3, i4, i5, i6⟩ := initial_main C ds hc s s' h
  have hcoord : ∀ d ∈ ds, ∀ t, initialTarget d.type = some t → (d.coord : Nat) < dim t := by
    intro d hd t ht
    exact hc (obj d t .dirichlet) (List.mem_flatMap.mpr ⟨d, hd, by unfold initialOf; rw [ht]; simp⟩)
  refine ⟨?_, ?_, ?_⟩
  · intro t g l k hD hl hk
    refine ⟨?_, ?_⟩
    · intro hno
      refine i1 t _ hD fun d hd ht l' hh => ?_
      exact hno d hd ht (initial_hits ht hl hk (hcoord d hd t ht) hh)
    · intro pre d post hds ht hcov hpost
      refine i2 pre d post t _ l hds ht ?_ ?_
      · obtain ⟨hk', nodes, hn, hg⟩ := hcov
        refine ⟨rfl, ?_, nodes, g, hn, hg, hl⟩
        show l * dim t + k = l * dim t + (d.coord : Nat)
        rw [hk']
      · intro d' hd' ht' l' hh
        exact hpost d' hd' ht' (initial_hits ht' hl hk
          (hcoord d' (by rw [hds]; exact List.mem_append_right _ (List.mem_cons_of_mem _ hd')) t ht') hh)
  · rintro (h | h)
    · exact i4 h
    · exact i3 h
  · rintro (h | h)
    · exact i6 h
    · exact i5 h

/-- Initial displacement of the second of two nodes, larger further from the origin. -/
def stretched : Definition :=
  { type := .initialDisplacement, nodeSet := "B", coord := 1, value := fun x _ _ _ => some (2 * x) }

/-- A processor that owns nodes 5 and 7. -/
def twoNodes : Ctx :=
  { owned := [5, 7], sets := fun s => if s = "B" then some [7] else none, x := fun i => i }

example : ∃ cs s', makeConditions [stretched] = .ok cs ∧
    applyInitial twoNodes cs.initial (fun _ _ => 0) = .ok s' ∧ lid twoNodes.owned 7 = some 1 ∧
    Covers twoNodes.sets stretched 7 1 ∧ s' .u 4 = 6 ∧ s' .y 4 = 10 := by
  refine ⟨{ initial := [obj stretched .u .dirichlet], boundary := [], force := [] }, ?_⟩
  have hv : nodeValue twoNodes (obj stretched .u .dirichlet) (fun _ => 0) 0 0 1 = .ok (2 * ((3 : ℕ) : ℝ)) := rfl
  have hn : applyNode twoNodes (obj stretched .u .dirichlet) 0 0 (fun _ _ => 0) 7 =
      .ok (write (fun _ _ => 0) .u 4 (2 * ((3 : ℕ) : ℝ))) := rfl
  have hs : skips (obj stretched .u .dirichlet) 0 0 = false := rfl
  have ha : apply twoNodes 0 0 (fun _ _ => 0) (obj stretched .u .dirichlet) =
      .ok (write (fun _ _ => 0) .u 4 (2 * ((3 : ℕ) : ℝ))) := by
    unfold apply
    rw [hs]
    rfl
  have hi : applyInitial twoNodes [obj stretched .u .dirichlet] (fun _ _ => 0) =
      .ok (afterInitial twoNodes .initialDisplacement (write (fun _ _ => 0) .u 4 (2 * ((3 : ℕ) : ℝ)))) := by
    rw [applyInitial_eq]
    refine foldlM_cons_ok.mpr ⟨_, Outcome.bind_eq_ok.mpr ⟨_, ha, rfl⟩, rfl⟩
  refine ⟨_, rfl, hi, rfl, ⟨rfl, [7], rfl, by simp⟩, ?_, ?_⟩
  · simp [afterInitial, write]; norm_num
  · simp [afterInitial, write, twoNodes]; norm_num

end Verif.BC
