import Verif.BC.Model
import Mathlib.Tactic.Linarith
import Mathlib.Tactic.Ring

/-!
# Boundary conditions: helper lemmas
-/

namespace Verif.BC

open Verif

/-! ## Folding an `Outcome` computation -/

theorem foldlM_nil {α β : Type} (f : β → α → Outcome β) (b : β) :
    List.foldlM f b [] = Outcome.ok b := rfl

theorem foldlM_cons_ok {α β : Type} {f : β → α → Outcome β} {b b' : β} {a : α} {l : List α} :
    List.foldlM f b (a :: l) = Outcome.ok b' ↔
      ∃ b1, f b a = Outcome.ok b1 ∧ List.foldlM f b1 l = Outcome.ok b' := by
  rw [List.foldlM_cons]
  exact Outcome.bind_eq_ok

theorem foldlM_append_ok {α β : Type} {f : β → α → Outcome β} {b b' : β} {l l' : List α} :
    List.foldlM f b (l ++ l') = Outcome.ok b' ↔
      ∃ b1, List.foldlM f b l = Outcome.ok b1 ∧ List.foldlM f b1 l' = Outcome.ok b' := by
  induction l generalizing b with
  | nil =>
    constructor
    · intro h; exact ⟨b, rfl, h⟩
    · rintro ⟨b1, h1, h2⟩
      have : b = b1 := by injection h1
      subst this; exact h2
  | cons a l ih =>
    rw [List.cons_append, foldlM_cons_ok]
    constructor
    · rintro ⟨b1, h1, h2⟩
      obtain ⟨b2, h3, h4⟩ := ih.mp h2
      exact ⟨b2, foldlM_cons_ok.mpr ⟨b1, h1, h3⟩, h4⟩
    · rintro ⟨b2, h3, h4⟩
      obtain ⟨b1, h1, h2⟩ := foldlM_cons_ok.mp h3
      exact ⟨b1, h1, ih.mpr ⟨b2, h2, h4⟩⟩

theorem ok_inj {α : Type} {a b : α} (h : (Outcome.ok a : Outcome α) = .ok b) : a = b := by
  injection h

/-! ## The lists built by `initialize` -/

/-- A condition object with the members of `d`. -/
def obj (d : Definition) (t : Target) (k : Kind) : Condition :=
  { type := d.type, nodeSet := d.nodeSet, coord := d.coord, value := d.value, target := t, kind := k }

theorem construct_ok {d : Definition} {t : Target} {k : Kind} {c : Condition}
    (h : construct d t k = .ok c) : c = obj d t k ∧ c.coord < dim t := by
  unfold construct at h
  split at h
  · exact absurd h (by simp)
  · rename_i hn
    have e := ok_inj h
    subst e
    refine ⟨rfl, ?_⟩
    show (d.coord : Nat) < dim t
    rcases Decidable.em (d.coord = 0) with e | e
    · rw [e]; cases t <;> decide
    · have : dim t ≠ 1 := fun h1 => hn ⟨h1, e⟩
      have hd : dim t = 3 := by cases t <;> first | rfl | exact absurd rfl this
      rw [hd]; exact d.coord.isLt

/-- The boundary conditions one definition contributes. -/
def boundaryOf (d : Definition) : List Condition :=
  match d.type with
  | .prescribedDisplacement => [obj d .deltaU (.increment 1 0 false), obj d .v (.increment 0 1 false)]
  | .prescribedFluidPressure =>
      [obj d .fluidPressureDeltaU (.increment 1 0 false), obj d .fluidPressureV (.increment 0 1 false)]
  | .prescribedTemperature => [obj d .temperature .dirichlet, obj d .deltaTemperature (.increment 1 0 true)]
  | .thermalFlux => [obj d .temperature .neumann]
  | _ => []

/-- The force contributions one definition contributes. -/
def forceOf (d : Definition) : List Condition :=
  match d.type with
  | .bodyForce => [obj d .externalForce .dirichlet]
  | _ => []

theorem addDefinition_ok {cs cs' : Conditions} {d : Definition}
    (h : addDefinition cs d = .ok cs') :
    cs'.boundary = cs.boundary ++ boundaryOf d ∧ cs'.force = cs.force ++ forceOf d ∧
    (∀ c ∈ boundaryOf d, c.coord < dim c.target) ∧ (∀ c ∈ forceOf d, c.coord < dim c.target) := by
  unfold addDefinition at h
  cases ht : d.type <;> rw [ht] at h <;> simp only [boundaryOf, forceOf, ht]
  case prescribedDisplacement | prescribedFluidPressure | prescribedTemperature =>
    obtain ⟨c, hc, h⟩ := Outcome.bind_eq_ok.mp h
    obtain ⟨c', hc', h⟩ := Outcome.bind_eq_ok.mp h
    obtain ⟨e, l⟩ := construct_ok hc
    obtain ⟨e', l'⟩ := construct_ok hc'
    have := ok_inj h
    subst this; subst e; subst e'
    refine ⟨rfl, by simp, ?_, by simp⟩
    intro c hc
    simp only [List.mem_cons, List.not_mem_nil, or_false] at hc
    rcases hc with rfl | rfl <;> assumption
  case thermalFlux =>
    obtain ⟨c, hc, h⟩ := Outcome.bind_eq_ok.mp h
    obtain ⟨e, l⟩ := construct_ok hc
    have := ok_inj h
    subst this; subst e
    refine ⟨rfl, by simp, ?_, by simp⟩
    intro c hc
    simp only [List.mem_cons, List.not_mem_nil, or_false] at hc
    subst hc; exact l
  case bodyForce =>
    obtain ⟨c, hc, h⟩ := Outcome.bind_eq_ok.mp h
    obtain ⟨e, l⟩ := construct_ok hc
    have := ok_inj h
    subst this; subst e
    refine ⟨by simp, rfl, by simp, ?_⟩
    intro c hc
    simp only [List.mem_cons, List.not_mem_nil, or_false] at hc
    subst hc; exact l
  all_goals
    obtain ⟨c, hc, h⟩ := Outcome.bind_eq_ok.mp h
    have := ok_inj h
    subst this
    simp

theorem makeConditions_aux (ds : List Definition) : ∀ cs cs' : Conditions,
    ds.foldlM addDefinition cs = .ok cs' →
    cs'.boundary = cs.boundary ++ ds.flatMap boundaryOf ∧
    cs'.force = cs.force ++ ds.flatMap forceOf ∧
    (∀ c ∈ ds.flatMap boundaryOf, c.coord < dim c.target) ∧
    (∀ c ∈ ds.flatMap forceOf, c.coord < dim c.target) := by
  induction ds with
  | nil =>
    intro cs cs' h
    have := ok_inj h
    subst this
    simp
  | cons d ds ih =>
    intro cs cs' h
    obtain ⟨c1, h1, h2⟩ := foldlM_cons_ok.mp h
    obtain ⟨a1, a2, a3, a4⟩ := addDefinition_ok h1
    obtain ⟨b1, b2, b3, b4⟩ := ih c1 cs' h2
    refine ⟨?_, ?_, ?_, ?_⟩
    · rw [b1, a1, List.flatMap_cons, List.append_assoc]
    · rw [b2, a2, List.flatMap_cons, List.append_assoc]
    · intro c hc
      rw [List.flatMap_cons, List.mem_append] at hc
      exact hc.elim (a3 c) (b3 c)
    · intro c hc
      rw [List.flatMap_cons, List.mem_append] at hc
      exact hc.elim (a4 c) (b4 c)

theorem makeConditions_ok {ds : List Definition} {cs : Conditions}
    (h : makeConditions ds = .ok cs) :
    cs.boundary = ds.flatMap boundaryOf ∧ cs.force = ds.flatMap forceOf ∧
    (∀ c ∈ cs.boundary, c.coord < dim c.target) ∧ (∀ c ∈ cs.force, c.coord < dim c.target) := by
  obtain ⟨a, b, c, d⟩ := makeConditions_aux ds {} cs h
  have a' : cs.boundary = ds.flatMap boundaryOf := by simpa using a
  have b' : cs.force = ds.flatMap forceOf := by simpa using b
  exact ⟨a', b', by rw [a']; exact c, by rw [b']; exact d⟩

theorem boundary_target {ds : List Definition} {c : Condition} (h : c ∈ ds.flatMap boundaryOf) :
    c.target ≠ .u ∧ c.target ≠ .externalForce ∧ c.target ≠ .y := by
  obtain ⟨d, _, hc⟩ := List.mem_flatMap.mp h
  unfold boundaryOf at hc
  cases ht : d.type <;> rw [ht] at hc <;>
    simp only [List.mem_cons, List.not_mem_nil, or_false] at hc <;>
    first
    | exact hc.elim
    | (rcases hc with rfl | rfl <;> simp [obj])

/-! ## Local ids -/

theorem lid_some {owned : List Nat} {g l : Nat} : lid owned g = some l ↔
    g ∈ owned ∧ l = owned.idxOf g := by
  unfold lid
  split
  · rename_i h
    simp only [Option.some.injEq]
    exact ⟨fun e => ⟨h, e.symm⟩, fun e => e.2.symm⟩
  · rename_i h
    simp [h]

theorem lid_inj {owned : List Nat} {g g' l : Nat} (h : lid owned g = some l)
    (h' : lid owned g' = some l) : g = g' := by
  obtain ⟨m, e⟩ := lid_some.mp h
  obtain ⟨m', e'⟩ := lid_some.mp h'
  have hl := List.idxOf_lt_length_of_mem m
  have hl' := List.idxOf_lt_length_of_mem m'
  have e1 : owned[owned.idxOf g]'hl = g := List.getElem_idxOf hl
  have e2 : owned[owned.idxOf g']'hl' = g' := List.getElem_idxOf hl'
  have : owned.idxOf g = owned.idxOf g' := by rw [← e, ← e']
  simp only [this] at e1
  exact e1.symm.trans e2

/-! ## Applying conditions -/

/-- Condition `c` writes entry `i` of vector `t`, on behalf of local node `l`. -/
def Hits (C : Ctx) (c : Condition) (t : Target) (i l : Nat) : Prop :=
  c.target = t ∧ i = l * dim t + c.coord ∧
    ∃ nodes g, C.sets c.nodeSet = some nodes ∧ g ∈ nodes ∧ lid C.owned g = some l

theorem write_u {s : Vecs} {t : Target} {i : Nat} {r : ℝ} (h : t ≠ .u) : write s t i r .u = s .u := by
  funext j
  unfold write
  rw [if_neg]
  rintro ⟨e, _⟩
  exact h e.symm

theorem applyNode_ok {C : Ctx} {c : Condition} {tc tp : ℝ} {s s' : Vecs} {g : Nat}
    (h : applyNode C c tc tp s g = .ok s') :
    (lid C.owned g = none ∧ s' = s) ∨
    ∃ l r, lid C.owned g = some l ∧ nodeValue C c (s .u) tc tp l = .ok r ∧
      s' = write s c.target (l * dim c.target + c.coord) r := by
  unfold applyNode at h
  split at h
  · rename_i e; exact .inl ⟨e, (ok_inj h).symm⟩
  · rename_i l e
    obtain ⟨r, hr, h⟩ := Outcome.bind_eq_ok.mp h
    exact .inr ⟨l, r, e, hr, (ok_inj h).symm⟩

theorem applyNodes_ok {C : Ctx} {c : Condition} {tc tp : ℝ} (hu : c.target ≠ .u)
    (hc : c.coord < dim c.target) (nodes : List Nat) : ∀ s s' : Vecs,
    nodes.foldlM (applyNode C c tc tp) s = .ok s' →
    s' .u = s .u ∧
    (∀ g l, g ∈ nodes → lid C.owned g = some l →
      nodeValue C c (s .u) tc tp l = .ok (s' c.target (l * dim c.target + c.coord))) ∧
    (∀ t i, (∀ g l, g ∈ nodes → lid C.owned g = some l → c.target = t →
      i ≠ l * dim c.target + c.coord) → s' t i = s t i) := by
  induction nodes with
  | nil =>
    intro s s' h
    have := ok_inj h
    subst this
    simp
  | cons g0 nodes ih =>
    intro s s' h
    obtain ⟨s1, h1, h2⟩ := foldlM_cons_ok.mp h
    obtain ⟨i1, i2, i3⟩ := ih s1 s' h2
    rcases applyNode_ok h1 with ⟨hn, e⟩ | ⟨l0, r0, hl0, hr0, e⟩
    · subst e
      refine ⟨i1, ?_, ?_⟩
      · intro g l hg hl
        rcases List.mem_cons.mp hg with rfl | hg
        · rw [hn] at hl; exact absurd hl (by simp)
        · exact i2 g l hg hl
      · intro t i hno
        exact i3 t i fun g l hg hl => hno g l (List.mem_cons_of_mem _ hg) hl
    · have hu1 : s1 .u = s .u := by rw [e]; exact write_u hu
      refine ⟨i1.trans hu1, ?_, ?_⟩
      · intro g l hg hl
        by_cases hin : ∃ g', g' ∈ nodes ∧ lid C.owned g' = some l
        · obtain ⟨g', hg', hl'⟩ := hin
          rw [← hu1]
          exact i2 g' l hg' hl'
        · rcases List.mem_cons.mp hg with rfl | hg
          · rw [hl0] at hl
            injection hl with hl
            subst hl
            rw [i3, hr0, e]
            · simp [write]
            · intro g' l' hg' hl' _ he
              have : l0 = l' := by
                have hd : 0 < dim c.target := by omega
                have := congrArg (· / dim c.target) he
                rw [Nat.mul_comm l0, Nat.mul_comm l', Nat.mul_add_div hd, Nat.mul_add_div hd] at this
                omega
              subst this
              exact hin ⟨g', hg', hl'⟩
          · exact absurd ⟨g, hg, hl⟩ hin
      · intro t i hno
        rw [i3 t i fun g l hg hl => hno g l (List.mem_cons_of_mem _ hg) hl, e]
        unfold write
        rw [if_neg]
        rintro ⟨rfl, rfl⟩
        exact hno g0 l0 (List.mem_cons_self ..) hl0 rfl rfl

theorem apply_ok {C : Ctx} {c : Condition} {tc tp : ℝ} (hu : c.target ≠ .u)
    (hc : c.coord < dim c.target) {s s' : Vecs} (h : apply C tc tp s c = .ok s') :
    s' .u = s .u ∧
    (skips c tc tp = false → ∀ t i l, Hits C c t i l →
      nodeValue C c (s .u) tc tp l = .ok (s' t i)) ∧
    (∀ t i, (∀ l, ¬ Hits C c t i l) → s' t i = s t i) := by
  unfold apply at h
  split at h
  · rename_i hs
    have := ok_inj h
    subst this
    exact ⟨rfl, fun h0 => by rw [hs] at h0; exact absurd h0 (by simp), fun _ _ _ => rfl⟩
  · unfold applyToSet at h
    split at h
    · exact absurd h (by simp)
    · rename_i nodes hn
      obtain ⟨a1, a2, a3⟩ := applyNodes_ok hu hc nodes s s' h
      refine ⟨a1, ?_, ?_⟩
      · rintro _ t i l ⟨ht, hi, nodes', g, hs, hg, hl⟩
        rw [hn] at hs
        injection hs with hs
        subst hs; subst ht; subst hi
        exact a2 g l hg hl
      · intro t i hno
        refine a3 t i ?_
        intro g l hg hl ht hi
        subst ht
        exact hno l ⟨rfl, hi, nodes, g, hn, hg, hl⟩

theorem applyAll_ok {C : Ctx} {tc tp : ℝ} (cs : List Condition)
    (hu : ∀ c ∈ cs, c.target ≠ .u) (hc : ∀ c ∈ cs, c.coord < dim c.target) : ∀ s s' : Vecs,
    cs.foldlM (apply C tc tp) s = .ok s' →
    s' .u = s .u ∧
    (∀ t i, (∀ c ∈ cs, ∀ l, ¬ Hits C c t i l) → s' t i = s t i) ∧
    (∀ pre c post, cs = pre ++ c :: post → skips c tc tp = false → ∀ t i l, Hits C c t i l →
      (∀ c' ∈ post, ∀ l', ¬ Hits C c' t i l') →
      nodeValue C c (s .u) tc tp l = .ok (s' t i)) := by
  induction cs with
  | nil =>
    intro s s' h
    have := ok_inj h
    subst this
    refine ⟨rfl, fun _ _ _ => rfl, ?_⟩
    intro pre c post e
    exact absurd e (by simp)
  | cons c0 cs ih =>
    intro s s' h
    obtain ⟨s1, h1, h2⟩ := foldlM_cons_ok.mp h
    obtain ⟨a1, a2, a3⟩ := apply_ok (hu _ (List.mem_cons_self ..)) (hc _ (List.mem_cons_self ..)) h1
    obtain ⟨b1, b2, b3⟩ := ih (fun c h => hu c (List.mem_cons_of_mem _ h))
      (fun c h => hc c (List.mem_cons_of_mem _ h)) s1 s' h2
    refine ⟨b1.trans a1, ?_, ?_⟩
    · intro t i hno
      rw [b2 t i fun c h => hno c (List.mem_cons_of_mem _ h), a3 t i (hno c0 (List.mem_cons_self ..))]
    · intro pre c post e hsk t i l hhit hpost
      cases pre with
      | nil =>
        rw [List.nil_append, List.cons.injEq] at e
        obtain ⟨rfl, rfl⟩ := e
        rw [b2 t i hpost]
        exact a2 hsk t i l hhit
      | cons p pre =>
        rw [List.cons_append, List.cons.injEq] at e
        rw [← a1]
        exact b3 pre c post e.2 hsk t i l hhit hpost

end Verif.BC
