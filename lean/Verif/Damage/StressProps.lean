import Verif.Damage.StressLemmas
import Mathlib.Tactic.NormNum

/-!
# Property C28: von Mises and Johnson-Cook damage
-/

noncomputable section

namespace Verif.Damage

open Verif Verif.Mech Verif.Neigh
open scoped Classical

/-- The final evaluations of the steps of a history. -/
def finals {α : Type} (hist : List (List α)) : List α := hist.filterMap List.getLast?

theorem finals_cons {α : Type} {st : List α} {hist : List (List α)} (h : st ≠ []) :
    finals (st :: hist) = st.getLast h :: finals hist := by
  rw [finals, List.filterMap_cons_some (List.getLast?_eq_some_getLast h)]
  rfl

/-- C28, von Mises stress: the damage of a bond after any history is the largest of its initial value and the
values the ramp assigned to its stress in the final evaluations of the steps. -/
theorem C28_vonMises_maximum (P : VMParams) (nbs : List (List Nat)) (hist : List (List (Geo × (Nat → ℝ))))
    (s s' : VMState) (hev : Evaluated hist) (h : vmRun P nbs.length (encode nbs) hist s = .ok s')
    (p t : Nat) (ns : List Nat) (hp : nbs[p]? = some ns) (ht : t < ns.length) :
    s'.bondN (bondPos nbs p t) =
      ((finals hist).map fun I => ramp P (I.2 (bondPos nbs p t))).foldl max (s.bondN (bondPos nbs p t)) := by
  induction hist generalizing s with
  | nil => cases h; rfl
  | cons st hist ih =>
    rw [vmRun] at h
    split at h
    · next s1 h1 =>
      have hne := hev st List.mem_cons_self
      rw [finals_cons hne, List.map_cons, List.foldl_cons,
        ih s1 (fun st' hst' => hev st' (List.mem_cons_of_mem _ hst')) h,
        vmStep_spec (List.getLast?_eq_some_getLast hne) h1 p t ns hp ht]
    · cases h
    · cases h

theorem foldl_max_bounds {l : List ℝ} {a : ℝ} (hl : ∀ x ∈ l, x ≤ 1) (ha : a ≤ 1) :
    a ≤ l.foldl max a ∧ l.foldl max a ≤ 1 := by
  induction l generalizing a with
  | nil => exact ⟨le_refl _, ha⟩
  | cons x l ih =>
    rw [List.foldl_cons]
    obtain ⟨h1, h2⟩ := ih (a := max a x) (fun y hy => hl y (List.mem_cons_of_mem _ hy))
      (max_le ha (hl x List.mem_cons_self))
    exact ⟨le_trans (le_max_left _ _) h1, h2⟩

/-- C28, von Mises stress: the damage of a bond never decreases and stays within [0,1]. -/
theorem C28_vonMises_monotone (P : VMParams) (nbs : List (List Nat)) (hist : List (List (Geo × (Nat → ℝ))))
    (s s' : VMState) (hev : Evaluated hist) (h : vmRun P nbs.length (encode nbs) hist s = .ok s')
    (p t : Nat) (ns : List Nat) (hp : nbs[p]? = some ns) (ht : t < ns.length)
    (h0 : 0 ≤ s.bondN (bondPos nbs p t)) (h1 : s.bondN (bondPos nbs p t) ≤ 1) :
    s.bondN (bondPos nbs p t) ≤ s'.bondN (bondPos nbs p t) ∧
      0 ≤ s'.bondN (bondPos nbs p t) ∧ s'.bondN (bondPos nbs p t) ≤ 1 := by
  rw [C28_vonMises_maximum P nbs hist s s' hev h p t ns hp ht]
  have := foldl_max_bounds (l := (finals hist).map fun I => ramp P (I.2 (bondPos nbs p t)))
    (by
      intro x hx
      obtain ⟨I, _, rfl⟩ := List.mem_map.1 hx
      exact (ramp_bounds _).2) h1
  exact ⟨this.1, le_trans h0 this.1, this.2⟩

/-- C28, von Mises stress: a bond is fully broken as soon as the ratio of stress and critical stress reaches the
critical damage in the final evaluation of some step. -/
theorem C28_vonMises_breaks (P : VMParams) (nbs : List (List Nat)) (hist : List (List (Geo × (Nat → ℝ))))
    (s s' : VMState) (hev : Evaluated hist) (h : vmRun P nbs.length (encode nbs) hist s = .ok s')
    (p t : Nat) (ns : List Nat) (hp : nbs[p]? = some ns) (ht : t < ns.length)
    (h1 : s.bondN (bondPos nbs p t) ≤ 1) (I : Geo × (Nat → ℝ)) (hI : I ∈ finals hist)
    (hc : P.critical ≤ I.2 (bondPos nbs p t) / P.stress) : s'.bondN (bondPos nbs p t) = 1 := by
  rw [C28_vonMises_maximum P nbs hist s s' hev h p t ns hp ht]
  have key : ∀ (l : List ℝ) (a : ℝ), (∀ x ∈ l, x ≤ 1) → a ≤ 1 → (1 ∈ l ∨ a = 1) → l.foldl max a = 1 := by
    intro l
    induction l with
    | nil => intro a _ _ hor; simpa using hor
    | cons x l ih =>
      intro a hl ha hor
      rw [List.foldl_cons]
      apply ih
      · exact fun y hy => hl y (List.mem_cons_of_mem _ hy)
      · exact max_le ha (hl x List.mem_cons_self)
      · have hx := hl x List.mem_cons_self
        rcases hor with hm | rfl
        · rcases List.mem_cons.1 hm with rfl | hm
          · exact Or.inr (max_eq_right ha)
          · exact Or.inl hm
        · exact Or.inr (max_eq_left hx)
  apply key
  · intro x hx
    obtain ⟨J, _, rfl⟩ := List.mem_map.1 hx
    exact (ramp_bounds _).2
  · exact h1
  · left
    refine List.mem_map.2 ⟨I, hI, ?_⟩
    unfold ramp
    rw [if_pos hc]

/-- C28, von Mises stress: with parameters the constructor accepts, a non-zero critical stress and non-zero
weighted volumes the model can always be evaluated (also if threshold and critical damage coincide). -/
theorem C28_vonMises_defined (P : VMParams) (nbs : List (List Nat)) (hist : List (List (Geo × (Nat → ℝ))))
    (s : VMState) (hc : P.construct = .ok P) (hs : P.stress ≠ 0)
    (hm : ∀ st ∈ hist, ∀ I ∈ st, ∀ p < nbs.length, I.1.m p ≠ 0) :
    ∃ s', vmRun P nbs.length (encode nbs) hist s = .ok s' := by
  have hc' : P.threshold ≤ P.critical := by
    unfold VMParams.construct at hc
    split at hc
    · cases hc
    · next h => exact not_lt.1 h
  have h1 : ∀ (st : List (Geo × (Nat → ℝ))) (s : VMState), (∀ I ∈ st, ∀ p < nbs.length, I.1.m p ≠ 0) →
      ∃ s', vmStep P nbs.length (encode nbs) st s = .ok s' := by
    intro st
    induction st with
    | nil => intro s _; exact ⟨_, rfl⟩
    | cons I st ih =>
      intro s hI
      obtain ⟨⟨d, avg⟩, hr⟩ := vmLoop_defined (P := P) (G := I.1) (stress := I.2) (bs := bondsOf nbs) s.bondN
        (fun p => if p < nbs.length then 0 else s.broken p) hs hc' (by
          intro b hb
          obtain ⟨ns, hn, _⟩ := mem_bondsOf hb
          exact hI I List.mem_cons_self b.i (List.getElem?_eq_some_iff.1 hn).1)
      rw [vmStep, vonMises, visited_encode]
      simp only
      rw [hr]
      exact ih _ fun J hJ => hI J (List.mem_cons_of_mem _ hJ)
  induction hist generalizing s with
  | nil => exact ⟨s, rfl⟩
  | cons st hist ih =>
    obtain ⟨s1, hs1⟩ := h1 st s (hm st List.mem_cons_self)
    rw [vmRun, hs1]
    exact ih s1 fun st' hst' => hm st' (List.mem_cons_of_mem _ hst')

/-! ### Johnson-Cook -/

/-- C28, Johnson-Cook: the damage parameter of a bond after any history is its initial value plus the sum of the
positive ratios of plastic strain increment and failure strain of the steps, but at most 1. -/
theorem C28_johnsonCook_sum (P : JCParams) (nbs : List (List Nat)) (hist : List (List JCInput))
    (s s' : JCState) (hev : Evaluated hist) (h : jcRun P nbs.length (encode nbs) hist s = .ok s')
    (p t : Nat) (ns : List Nat) (hp : nbs[p]? = some ns) (ht : t < ns.length)
    (h1 : s.parN (bondPos nbs p t) ≤ 1) :
    s'.parN (bondPos nbs p t) = min 1 (s.parN (bondPos nbs p t) + ((finals hist).map fun I =>
      max 0 ((I.eqN (bondPos nbs p t) - I.eqNP1 (bondPos nbs p t)) /
        (P.d1 + P.d2 * Real.exp (-P.d3 * I.triax (bondPos nbs p t))))).sum) := by
  induction hist generalizing s with
  | nil =>
    cases h
    simp [finals, h1]
  | cons st hist ih =>
    rw [jcRun] at h
    split at h
    · next s1 hs1 =>
      have hne := hev st List.mem_cons_self
      have e := (jcStep_spec (List.getLast?_eq_some_getLast hne) hs1 p t ns hp ht).1
      have hle : s1.parN (bondPos nbs p t) ≤ 1 := by rw [e]; exact min_le_left _ _
      rw [ih s1 (fun st' hst' => hev st' (List.mem_cons_of_mem _ hst')) h hle, finals_cons hne,
        List.map_cons, List.sum_cons, e]
      have hs : ∀ l : List JCInput, 0 ≤ (l.map fun I => max 0 ((I.eqN (bondPos nbs p t) -
          I.eqNP1 (bondPos nbs p t)) / (P.d1 + P.d2 * Real.exp (-P.d3 * I.triax (bondPos nbs p t))))).sum := by
        intro l
        apply List.sum_nonneg
        intro x hx
        obtain ⟨I, _, rfl⟩ := List.mem_map.1 hx
        exact le_max_left _ _
      have hs' := hs (finals hist)
      generalize (List.map (fun I : JCInput => max 0 ((I.eqN (bondPos nbs p t) - I.eqNP1 (bondPos nbs p t)) /
        (P.d1 + P.d2 * Real.exp (-P.d3 * I.triax (bondPos nbs p t))))) (finals hist)).sum = S at hs' ⊢
      unfold jcIncrement epsF
      generalize max 0 (((st.getLast hne).eqN (bondPos nbs p t) - (st.getLast hne).eqNP1 (bondPos nbs p t)) /
        (P.d1 + P.d2 * Real.exp (-P.d3 * (st.getLast hne).triax (bondPos nbs p t)))) = x
      rcases le_total (1 : ℝ) (s.parN (bondPos nbs p t) + x) with hc | hc
      · rw [min_eq_left hc, min_eq_left (by linarith), min_eq_left (by linarith)]
      · rw [min_eq_right hc, add_assoc]
    · cases h
    · cases h

/-- C28, Johnson-Cook: the damage parameter of a bond never decreases and stays within [0,1]. -/
theorem C28_johnsonCook_monotone (P : JCParams) (nbs : List (List Nat)) (hist : List (List JCInput))
    (s s' : JCState) (hev : Evaluated hist) (h : jcRun P nbs.length (encode nbs) hist s = .ok s')
    (p t : Nat) (ns : List Nat) (hp : nbs[p]? = some ns) (ht : t < ns.length)
    (h0 : 0 ≤ s.parN (bondPos nbs p t)) (h1 : s.parN (bondPos nbs p t) ≤ 1) :
    s.parN (bondPos nbs p t) ≤ s'.parN (bondPos nbs p t) ∧
      0 ≤ s'.parN (bondPos nbs p t) ∧ s'.parN (bondPos nbs p t) ≤ 1 := by
  have e := C28_johnsonCook_sum P nbs hist s s' hev h p t ns hp ht h1
  have hs : 0 ≤ ((finals hist).map fun I => max 0 ((I.eqN (bondPos nbs p t) -
      I.eqNP1 (bondPos nbs p t)) / (P.d1 + P.d2 * Real.exp (-P.d3 * I.triax (bondPos nbs p t))))).sum := by
    apply List.sum_nonneg
    intro x hx
    obtain ⟨I, _, rfl⟩ := List.mem_map.1 hx
    exact le_max_left _ _
  rw [e]
  have h2 : s.parN (bondPos nbs p t) ≤ min 1 (s.parN (bondPos nbs p t) + ((finals hist).map fun I =>
      max 0 ((I.eqN (bondPos nbs p t) - I.eqNP1 (bondPos nbs p t)) /
        (P.d1 + P.d2 * Real.exp (-P.d3 * I.triax (bondPos nbs p t))))).sum) := le_min h1 (by linarith)
  exact ⟨h2, le_trans h0 h2, min_le_left _ _⟩

theorem jcRun_append {P : JCParams} {n : Nat} {l : List Nat} {h1 h2 : List (List JCInput)} {s s' : JCState}
    (h : jcRun P n l (h1 ++ h2) s = .ok s') :
    ∃ m, jcRun P n l h1 s = .ok m ∧ jcRun P n l h2 m = .ok s' := by
  induction h1 generalizing s with
  | nil => exact ⟨s, rfl, h⟩
  | cons st h1 ih =>
    rw [List.cons_append, jcRun] at h
    rw [jcRun]
    split at h
    · exact ih h
    · cases h
    · cases h

/-- C28, Johnson-Cook: after every step the bond damage is a fixed non-decreasing function of the damage parameter,
with values in [0,1]; so it never decreases either. -/
theorem C28_johnsonCook_bond (P : JCParams) (hc : P.construct = .ok P) (nbs : List (List Nat))
    (hist more : List (List JCInput)) (s m s' : JCState) (hev : Evaluated (hist ++ more)) (hne : hist ≠ [])
    (hm : jcRun P nbs.length (encode nbs) hist s = .ok m)
    (h : jcRun P nbs.length (encode nbs) (hist ++ more) s = .ok s')
    (p t : Nat) (ns : List Nat) (hp : nbs[p]? = some ns) (ht : t < ns.length)
    (h0 : 0 ≤ s.parN (bondPos nbs p t)) (h1 : s.parN (bondPos nbs p t) ≤ 1) :
    0 ≤ m.bondNP1 (bondPos nbs p t) ∧ m.bondNP1 (bondPos nbs p t) ≤ s'.bondNP1 (bondPos nbs p t) ∧
      s'.bondNP1 (bondPos nbs p t) ≤ 1 ∧
      (s'.bondNP1 (bondPos nbs p t) = 1 ↔ s'.parN (bondPos nbs p t) = 1) ∧
      (s'.bondNP1 (bondPos nbs p t) = 0 ↔ s'.parN (bondPos nbs p t) ≤ P.threshold) := by
  have ht1 : P.threshold < 1 := by
    unfold JCParams.construct at hc
    split at hc
    · cases hc
    · next ha =>
      split at hc
      · cases hc
      · next hb => exact lt_trans (not_le.1 hb) (not_le.1 ha)
  have hden : 0 < 1 - P.threshold := by linarith
  have last : ∀ (hist : List (List JCInput)) (s s' : JCState), Evaluated hist → hist ≠ [] →
      jcRun P nbs.length (encode nbs) hist s = .ok s' →
      s'.bondNP1 (bondPos nbs p t) = if P.threshold < s'.parN (bondPos nbs p t) then
          (s'.parN (bondPos nbs p t) - P.threshold) / (1 - P.threshold) else 0 := by
    intro hist
    induction hist with
    | nil => intro _ _ _ h; exact absurd rfl h
    | cons st hist ih =>
      intro s s' hev _ h
      rw [jcRun] at h
      split at h
      · next s1 hs1 =>
        cases hist with
        | nil =>
          cases h
          exact (jcStep_spec (List.getLast?_eq_some_getLast (hev st List.mem_cons_self)) hs1 p t ns hp ht).2
        | cons st2 hist =>
          exact ih s1 s' (fun st' hst' => hev st' (List.mem_cons_of_mem _ hst')) (List.cons_ne_nil _ _) h
      · cases h
      · cases h
  have hev1 : Evaluated hist := fun st hst => hev st (List.mem_append_left _ hst)
  have hev2 : Evaluated more := fun st hst => hev st (List.mem_append_right _ hst)
  obtain ⟨m', hm', hs⟩ := jcRun_append h
  rw [hm] at hm'
  cases hm'
  have e1 := last hist s m hev1 hne hm
  have e2 := last (hist ++ more) s s' hev (by simp [hne]) h
  obtain ⟨_, b2, b3⟩ := C28_johnsonCook_monotone P nbs hist s m hev1 hm p t ns hp ht h0 h1
  obtain ⟨c1, c2, c3⟩ := C28_johnsonCook_monotone P nbs more m s' hev2 hs p t ns hp ht b2 b3
  rw [e1, e2]
  generalize m.parN (bondPos nbs p t) = a at *
  generalize s'.parN (bondPos nbs p t) = c at *
  refine ⟨?_, ?_, ?_, ?_, ?_⟩
  · split
    · exact div_nonneg (by linarith) hden.le
    · exact le_refl _
  · split
    · rw [if_pos (by linarith), div_le_div_iff_of_pos_right hden]
      linarith
    · split
      · exact div_nonneg (by linarith) hden.le
      · exact le_refl _
  · split
    · rw [div_le_one hden]; linarith
    · exact zero_le_one
  · split
    · rw [div_eq_one_iff_eq hden.ne']
      constructor <;> intro h' <;> linarith
    · constructor
      · intro h'; exact absurd h' zero_ne_one
      · intro h'; linarith
  · split
    · next hlt =>
      constructor
      · intro h'
        rcases div_eq_zero_iff.1 h' with h' | h' <;> linarith
      · intro h'; linarith
    · next hlt => exact ⟨fun _ => not_lt.1 hlt, fun _ => rfl⟩

/-- C28, Johnson-Cook: with parameters the constructor accepts, non-zero failure strains and weighted volumes the
model can always be evaluated. -/
theorem C28_johnsonCook_defined (P : JCParams) (nbs : List (List Nat)) (hist : List (List JCInput))
    (s : JCState) (hc : P.construct = .ok P)
    (he : ∀ st ∈ hist, ∀ I ∈ st, ∀ k, P.d1 + P.d2 * Real.exp (-P.d3 * I.triax k) ≠ 0)
    (hm : ∀ st ∈ hist, ∀ I ∈ st, ∀ p < nbs.length, I.geo.m p ≠ 0) :
    ∃ s', jcRun P nbs.length (encode nbs) hist s = .ok s' := by
  have ht1 : P.threshold < 1 := by
    unfold JCParams.construct at hc
    split at hc
    · cases hc
    · next ha =>
      split at hc
      · cases hc
      · next hb => exact lt_trans (not_le.1 hb) (not_le.1 ha)
  have h1 : ∀ (st : List JCInput) (s : JCState),
      (∀ I ∈ st, ∀ k, P.d1 + P.d2 * Real.exp (-P.d3 * I.triax k) ≠ 0) →
      (∀ I ∈ st, ∀ p < nbs.length, I.geo.m p ≠ 0) →
      ∃ s', jcStep P nbs.length (encode nbs) st s = .ok s' := by
    intro st
    induction st with
    | nil => intro s _ _; exact ⟨_, rfl⟩
    | cons I st ih =>
      intro s hI hJ
      obtain ⟨s1, hr⟩ := jcLoop_defined (P := P) (I := I) (parN := s.parN) (bs := bondsOf nbs) { s with
          damage := fun _ => 0
          broken := fun p => if p < nbs.length then 0 else s.broken p } ht1
        (fun b _ => hI I List.mem_cons_self b.b) (by
          intro b hb
          obtain ⟨ns, hn, _⟩ := mem_bondsOf hb
          exact hJ I List.mem_cons_self b.i (List.getElem?_eq_some_iff.1 hn).1)
      rw [jcStep, johnsonCook, visited_encode]
      simp only
      rw [hr]
      exact ih _ (fun J hJ' => hI J (List.mem_cons_of_mem _ hJ')) fun J hJ' => hJ J (List.mem_cons_of_mem _ hJ')
  induction hist generalizing s with
  | nil => exact ⟨s, rfl⟩
  | cons st hist ih =>
    obtain ⟨s1, hs1⟩ := h1 st s (he st List.mem_cons_self) (hm st List.mem_cons_self)
    rw [jcRun, hs1]
    exact ih s1 (fun st' hst' => he st' (List.mem_cons_of_mem _ hst'))
      fun st' hst' => hm st' (List.mem_cons_of_mem _ hst')

/-! ### Examples -/

/-- A geometry with weighted volume one. -/
def unitGeo : Geo where
  y := fun k => ![k, 0, 0]
  v := fun _ => 1
  jac := fun _ => 1
  m := fun _ => 1
  omega := fun _ _ => 1
  horizon := fun _ => 1

/-- Parameters of the examples. -/
def vmExample : VMParams := ⟨100, 1/2, 1, 95/100⟩

/-- Non-vacuity: stress 75 and then 20 leaves the damage 1/2 the higher stress caused. -/
example : ∃ s', vmRun vmExample 2 (encode [[1], [0]])
      [[(unitGeo, fun _ => 75)], [(unitGeo, fun _ => 20)]]
      ⟨fun _ => 0, fun _ => 0, fun _ => 0, fun _ => 0⟩ = .ok s' ∧ s'.bondN 0 = 1/2 := by
  have hc : vmExample.construct = .ok vmExample := by
    unfold VMParams.construct vmExample
    rw [if_neg (by norm_num)]
  obtain ⟨s', h⟩ := C28_vonMises_defined vmExample [[1], [0]]
    [[(unitGeo, fun _ => 75)], [(unitGeo, fun _ => 20)]] ⟨fun _ => 0, fun _ => 0, fun _ => 0, fun _ => 0⟩ hc
    (by norm_num [vmExample]) (by
      intro st hst I hI p _
      simp only [List.mem_cons, List.not_mem_nil, or_false] at hst
      rcases hst with rfl | rfl <;>
        simp only [List.mem_cons, List.not_mem_nil, or_false] at hI <;> subst hI <;> simp [unitGeo])
  refine ⟨s', h, ?_⟩
  have hev : Evaluated [[((unitGeo, fun _ => 75) : Geo × (Nat → ℝ))], [(unitGeo, fun _ => 20)]] := by
    intro st hst
    simp only [List.mem_cons, List.not_mem_nil, or_false] at hst
    rcases hst with rfl | rfl <;> simp
  have e := C28_vonMises_maximum vmExample [[1], [0]] _ _ s' hev h 0 0 [1] rfl (by decide)
  have e0 : bondPos [[1], [0]] 0 0 = 0 := rfl
  rw [e0] at e
  rw [e]
  simp only [finals, List.filterMap_cons, List.filterMap_nil, List.getLast?_singleton, List.map_cons,
    List.map_nil, List.foldl_cons, List.foldl_nil, ramp, vmExample]
  norm_num

/-- Parameters of the example: failure strain 2. -/
def jcExample : JCParams := ⟨2, 0, 1, 9/10, 1/2, 95/100⟩

/-- The input of a step in which the plastic strain grew from `a` to `c` in the step before. -/
def jcExampleInput (a c : ℝ) : JCInput := ⟨unitGeo, fun _ => c, fun _ => a, fun _ => 0⟩

/-- Non-vacuity: two increments 3/2 and 1/2 of plastic strain with failure strain 2 add up to damage 1, the bond
is broken. -/
example : jcExample.construct = .ok jcExample ∧ ∃ s', jcRun jcExample 2 (encode [[1], [0]])
      [[jcExampleInput 0 (3/2)], [jcExampleInput (3/2) 2]]
      ⟨fun _ => 0, fun _ => 0, fun _ => 0, fun _ => 0, fun _ => 0, fun _ => 0⟩ = .ok s' ∧ s'.parN 0 = 1 ∧
      s'.bondNP1 0 = 1 := by
  have hc : jcExample.construct = .ok jcExample := by
    unfold JCParams.construct jcExample
    rw [if_neg (by norm_num), if_neg (by norm_num)]
  obtain ⟨s', h⟩ := C28_johnsonCook_defined jcExample [[1], [0]]
    [[jcExampleInput 0 (3/2)], [jcExampleInput (3/2) 2]]
    ⟨fun _ => 0, fun _ => 0, fun _ => 0, fun _ => 0, fun _ => 0, fun _ => 0⟩ hc
    (by intro st _ I _ k; simp [jcExample]) (by
      intro st hst I hI p _
      simp only [List.mem_cons, List.not_mem_nil, or_false] at hst
      rcases hst with rfl | rfl <;>
        simp only [List.mem_cons, List.not_mem_nil, or_false] at hI <;> subst hI <;>
        simp [jcExampleInput, unitGeo])
  have hev : Evaluated [[jcExampleInput 0 (3/2)], [jcExampleInput (3/2) 2]] := by
    intro st hst
    simp only [List.mem_cons, List.not_mem_nil, or_false] at hst
    rcases hst with rfl | rfl <;> simp
  have e := C28_johnsonCook_sum jcExample [[1], [0]] _ _ s' hev h 0 0 [1] rfl (by decide) zero_le_one
  have e0 : bondPos [[1], [0]] 0 0 = 0 := rfl
  rw [e0] at e
  have e1 : s'.parN 0 = 1 := by
    rw [e]
    simp only [finals, List.filterMap_cons, List.filterMap_nil, List.getLast?_singleton, List.map_cons,
      List.map_nil, List.sum_cons, List.sum_nil, jcExample, jcExampleInput]
    norm_num
  refine ⟨hc, s', h, e1, ?_⟩
  have := (C28_johnsonCook_bond jcExample hc [[1], [0]] _ [] _ s' s' (by rw [List.append_nil]; exact hev)
    (by simp) h (by rw [List.append_nil]; exact h) 0 0 [1] rfl (by decide) le_rfl zero_le_one).2.2.2.1
  rw [e0] at this
  exact this.2 e1

end Verif.Damage
