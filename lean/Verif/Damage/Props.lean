import Verif.Damage.Lemmas
import Mathlib.Tactic.NormNum

/-!
# Properties C25, C26 and C27: critical-stretch damage
-/

noncomputable section

namespace Verif.Damage

open Verif Verif.Mech Verif.Neigh
open scoped Classical

/-! ### C25 -/

theorem run_values {crit : ℝ} {ids : List Nat} {nbs : List (List Nat)} {hist : List (List Input)}
    {s s' : State} (hlen : ids.length = nbs.length) (hev : Evaluated hist)
    (h : run (criticalStretch crit ids (encode nbs)) hist s = .ok s') {p t i j : Nat}
    (hb : IsBond ids nbs p t i j) (h0 : s.bondN (bondPos nbs p t) = 0 ∨ s.bondN (bondPos nbs p t) = 1) :
    s'.bondN (bondPos nbs p t) =
      if s.bondN (bondPos nbs p t) = 1 ∨ Overstretched crit hist i j then 1 else 0 := by
  induction hist generalizing s with
  | nil =>
    cases h
    have hno : ¬ Overstretched crit [] i j := fun ⟨_, hm, _⟩ => absurd hm List.not_mem_nil
    rcases h0 with h0 | h0
    · simp [h0, hno]
    · simp [h0]
  | cons st hist ih =>
    rw [run] at h
    split at h
    · next s1 h1 =>
      have hne := hev st List.mem_cons_self
      have hl : st.getLast? = some (st.getLast hne) := List.getLast?_eq_some_getLast hne
      have h2 := (runStep_critical hlen hl h1).1 p t i j hb
      rw [afterBond_values h0] at h2
      have h01 : s1.bondN (bondPos nbs p t) = 0 ∨ s1.bondN (bondPos nbs p t) = 1 := by
        rw [h2]
        split
        · exact Or.inr rfl
        · exact Or.inl rfl
      rw [ih (fun st' hst' => hev st' (List.mem_cons_of_mem _ hst')) h h01]
      have hover : Overstretched crit (st :: hist) i j ↔
          crit < stretch (st.getLast hne) i j ∨ Overstretched crit hist i j := by
        constructor
        · rintro ⟨u, hu, I, hI, hc⟩
          rcases List.mem_cons.1 hu with rfl | hu
          · rw [hl] at hI
            cases hI
            exact Or.inl hc
          · exact Or.inr ⟨u, hu, I, hI, hc⟩
        · rintro (hc | ⟨u, hu, I, hI, hc⟩)
          · exact ⟨st, List.mem_cons_self, _, hl, hc⟩
          · exact ⟨u, List.mem_cons_of_mem _ hu, I, hI, hc⟩
      have e : (s1.bondN (bondPos nbs p t) = 1 ∨ Overstretched crit hist i j) ↔
          (s.bondN (bondPos nbs p t) = 1 ∨ Overstretched crit (st :: hist) i j) := by
        rw [h2, hover]
        by_cases ha : s.bondN (bondPos nbs p t) = 1 ∨ crit < stretch (st.getLast hne) i j
        · rw [if_pos ha]
          rcases ha with ha | ha <;> simp [ha]
        · rw [if_neg ha]
          rw [not_or] at ha
          simp [ha]
      simp only [e]
    · cases h
    · cases h

/-- C25: with the critical-stretch damage model, starting with undamaged bonds, the damage of a bond after any
number of steps is 1 if its stretch exceeded the critical value in the final evaluation of one of these steps, and
0 otherwise.  A step may consist of any number of evaluations (at least one). -/
theorem C25_broken_iff (crit : ℝ) (ids : List Nat) (nbs : List (List Nat)) (hist : List (List Input))
    (s s' : State) (hlen : ids.length = nbs.length) (hev : Evaluated hist)
    (h : run (criticalStretch crit ids (encode nbs)) hist s = .ok s') (p t i j : Nat)
    (hb : IsBond ids nbs p t i j) (h0 : s.bondN (bondPos nbs p t) = 0) :
    (Overstretched crit hist i j → s'.bondN (bondPos nbs p t) = 1) ∧
      (¬ Overstretched crit hist i j → s'.bondN (bondPos nbs p t) = 0) := by
  have := run_values hlen hev h hb (Or.inl h0)
  rw [h0] at this
  constructor
  · intro ho; simpa [ho] using this
  · intro ho; simpa [ho] using this

/-- C25, irreversibility: whatever the initial bond damage (also with values between 0 and 1), it never decreases,
in particular broken bonds stay broken. -/
theorem C25_irreversible (crit : ℝ) (ids : List Nat) (nbs : List (List Nat)) (hist : List (List Input))
    (s s' : State) (hlen : ids.length = nbs.length) (hev : Evaluated hist)
    (h : run (criticalStretch crit ids (encode nbs)) hist s = .ok s') (p t i j : Nat)
    (hb : IsBond ids nbs p t i j) : s.bondN (bondPos nbs p t) ≤ s'.bondN (bondPos nbs p t) := by
  induction hist generalizing s with
  | nil => cases h; exact le_refl _
  | cons st hist ih =>
    rw [run] at h
    split at h
    · next s1 h1 =>
      have hne := hev st List.mem_cons_self
      have h2 := (runStep_critical hlen (List.getLast?_eq_some_getLast hne) h1).1 p t i j hb
      refine le_trans ?_ (ih s1 (fun st' hst' => hev st' (List.mem_cons_of_mem _ hst')) h)
      rw [h2]
      exact afterBond_mono _ _ _
    · cases h
    · cases h

/-- C25: within a step the bond damage depends on the last evaluation only: bonds overstretched in an
earlier iteration of an implicit solver, but not in the last, stay intact. -/
theorem C25_last_evaluation (crit : ℝ) (ids : List Nat) (nbs : List (List Nat)) (st : List Input) (I : Input)
    (s s' s'' : State) (hlen : ids.length = nbs.length)
    (h : runStep (criticalStretch crit ids (encode nbs)) (st ++ [I]) s = .ok s')
    (h' : runStep (criticalStretch crit ids (encode nbs)) [I] s = .ok s'') (p t i j : Nat)
    (hb : IsBond ids nbs p t i j) : s'.bondN (bondPos nbs p t) = s''.bondN (bondPos nbs p t) := by
  rw [(runStep_critical hlen (I := I) (by simp) h).1 p t i j hb,
    (runStep_critical hlen (I := I) (by simp) h').1 p t i j hb]

/-- C25, definedness: if no bond has zero length in the reference configuration, the model can be evaluated for
every history. -/
theorem C25_defined (crit : ℝ) (ids : List Nat) (nbs : List (List Nat)) (hist : List (List Input))
    (s : State) (hlen : ids.length = nbs.length)
    (hx : ∀ st ∈ hist, ∀ I ∈ st, Distinct I ids nbs) :
    ∃ s', run (criticalStretch crit ids (encode nbs)) hist s = .ok s' := by
  induction hist generalizing s with
  | nil => exact ⟨s, rfl⟩
  | cons st hist ih =>
    have h1 : ∀ (st : List Input) (s : State), (∀ I ∈ st, Distinct I ids nbs) →
        ∃ s', runStep (criticalStretch crit ids (encode nbs)) st s = .ok s' := by
      intro st
      induction st with
      | nil => intro s _; exact ⟨_, rfl⟩
      | cons I st ih2 =>
        intro s hI
        obtain ⟨s1, hs1⟩ := damageLoops_defined (crit := crit) s.bondN s hlen (hI I List.mem_cons_self)
        rw [runStep, criticalStretch, hs1]
        exact ih2 s1 fun J hJ => hI J (List.mem_cons_of_mem _ hJ)
    obtain ⟨s1, hs1⟩ := h1 st s (hx st List.mem_cons_self)
    rw [run, hs1]
    exact ih s1 fun st' hst' => hx st' (List.mem_cons_of_mem _ hst')

/-! ### C26 -/

/-- C26: after every step the damage of a point is the fraction of its bonds that are broken, 0 for a point
without bonds. -/
theorem C26_fraction (crit : ℝ) (ids : List Nat) (nbs : List (List Nat)) (hist : List (List Input))
    (s s' : State) (hlen : ids.length = nbs.length) (hnd : ids.Nodup) (hev : Evaluated hist)
    (hne : hist ≠ []) (h : run (criticalStretch crit ids (encode nbs)) hist s = .ok s')
    (h0 : ∀ k, s.bondN k = 0 ∨ s.bondN k = 1) (p i : Nat) (ns : List Nat) (hi : ids[p]? = some i)
    (hp : nbs[p]? = some ns) : s'.pointN i = brokenFraction nbs s'.bondN p ns := by
  have hval : ∀ t < ns.length, s'.bondN (bondPos nbs p t) = 0 ∨ s'.bondN (bondPos nbs p t) = 1 := by
    intro t ht
    have hb : IsBond ids nbs p t i ns[t] := ⟨hi, ns, hp, List.getElem?_eq_getElem ht⟩
    rw [run_values hlen hev h hb (h0 _)]
    split
    · exact Or.inr rfl
    · exact Or.inl rfl
  rw [← meanDamage_fraction hval]
  clear hval h0
  induction hist generalizing s with
  | nil => exact absurd rfl hne
  | cons st hist ih =>
    rw [run] at h
    split at h
    · next s1 h1 =>
      cases hist with
      | nil =>
        cases h
        have hne1 := hev st List.mem_cons_self
        exact (runStep_critical hlen (List.getLast?_eq_some_getLast hne1) h1).2 p i ns hnd hi hp
      | cons st2 hist =>
        exact ih s1 (fun st' hst' => hev st' (List.mem_cons_of_mem _ hst')) (List.cons_ne_nil _ _) h
    · cases h
    · cases h

theorem brokenFraction_bounds (nbs : List (List Nat)) (d : Nat → ℝ) (p : Nat) (ns : List Nat) :
    0 ≤ brokenFraction nbs d p ns ∧ brokenFraction nbs d p ns ≤ 1 := by
  unfold brokenFraction
  split
  · exact ⟨le_refl _, zero_le_one⟩
  · next h0 =>
    have hpos : (0 : ℝ) < ns.length := by
      have : 0 < ns.length := Nat.pos_of_ne_zero h0
      exact_mod_cast this
    refine ⟨div_nonneg (Nat.cast_nonneg _) hpos.le, ?_⟩
    rw [div_le_one hpos]
    have := List.length_filter_le (fun t => decide (d (bondPos nbs p t) = 1)) (List.range ns.length)
    rw [List.length_range] at this
    exact_mod_cast this

theorem brokenFraction_mono {nbs : List (List Nat)} {d d' : Nat → ℝ} {p : Nat} {ns : List Nat}
    (h : ∀ t < ns.length, d (bondPos nbs p t) = 1 → d' (bondPos nbs p t) = 1) :
    brokenFraction nbs d p ns ≤ brokenFraction nbs d' p ns := by
  unfold brokenFraction
  split
  · exact le_refl _
  · next h0 =>
    have hpos : (0 : ℝ) < ns.length := by
      have : 0 < ns.length := Nat.pos_of_ne_zero h0
      exact_mod_cast this
    rw [div_le_div_iff_of_pos_right hpos]
    have key : ∀ l : List Nat, (∀ t ∈ l, t < ns.length) →
        (l.filter fun t => decide (d (bondPos nbs p t) = 1)).length ≤
          (l.filter fun t => decide (d' (bondPos nbs p t) = 1)).length := by
      intro l
      induction l with
      | nil => intro _; exact le_refl _
      | cons t l ih =>
        intro hl
        have h1 := ih fun u hu => hl u (List.mem_cons_of_mem _ hu)
        by_cases ha : d (bondPos nbs p t) = 1
        · have hb := h t (hl t List.mem_cons_self) ha
          rw [List.filter_cons_of_pos (by simp [ha]), List.filter_cons_of_pos (by simp [hb])]
          simpa using h1
        · rw [List.filter_cons_of_neg (by simp [ha])]
          refine le_trans h1 ?_
          by_cases hb : d' (bondPos nbs p t) = 1
          · rw [List.filter_cons_of_pos (by simp [hb])]
            simp
          · rw [List.filter_cons_of_neg (by simp [hb])]
    exact_mod_cast key _ fun t ht => List.mem_range.1 ht

theorem run_append {I : Type} {eval : I → State → Outcome State} {h1 h2 : List (List I)} {s s' : State}
    (h : run eval (h1 ++ h2) s = .ok s') :
    ∃ m, run eval h1 s = .ok m ∧ run eval h2 m = .ok s' := by
  induction h1 generalizing s with
  | nil => exact ⟨s, rfl, h⟩
  | cons st h1 ih =>
    rw [List.cons_append, run] at h
    rw [run]
    split at h
    · exact ih h
    · cases h
    · cases h

/-- C26: the damage of a point lies in [0,1] and never decreases as the history goes on. -/
theorem C26_monotone (crit : ℝ) (ids : List Nat) (nbs : List (List Nat)) (hist more : List (List Input))
    (s m s' : State) (hlen : ids.length = nbs.length) (hnd : ids.Nodup) (hev : Evaluated (hist ++ more))
    (hne : hist ≠ []) (hm : run (criticalStretch crit ids (encode nbs)) hist s = .ok m)
    (h : run (criticalStretch crit ids (encode nbs)) (hist ++ more) s = .ok s')
    (h0 : ∀ k, s.bondN k = 0 ∨ s.bondN k = 1) (p i : Nat) (ns : List Nat) (hi : ids[p]? = some i)
    (hp : nbs[p]? = some ns) : 0 ≤ m.pointN i ∧ m.pointN i ≤ s'.pointN i ∧ s'.pointN i ≤ 1 := by
  have hev1 : Evaluated hist := fun st hst => hev st (List.mem_append_left _ hst)
  have hev2 : Evaluated more := fun st hst => hev st (List.mem_append_right _ hst)
  have e1 := C26_fraction crit ids nbs hist s m hlen hnd hev1 hne hm h0 p i ns hi hp
  have e2 := C26_fraction crit ids nbs (hist ++ more) s s' hlen hnd hev
    (by simp [hne]) h h0 p i ns hi hp
  rw [e1, e2]
  refine ⟨(brokenFraction_bounds _ _ _ _).1, ?_, (brokenFraction_bounds _ _ _ _).2⟩
  apply brokenFraction_mono
  intro t ht h1
  obtain ⟨m', hm', hs⟩ := run_append h
  rw [hm] at hm'
  cases hm'
  have hb : IsBond ids nbs p t i ns[t] := ⟨hi, ns, hp, List.getElem?_eq_getElem ht⟩
  rw [run_values hlen hev2 hs hb (Or.inr h1), if_pos (Or.inl h1)]

/-! ### An example: two points, pulled apart and released -/

/-- Points 0 and 1 on the x axis at distance one in the reference configuration and `a` in the deformed one. -/
def pair (a : ℝ) : Input where
  x := fun k => ![k, 0, 0]
  y := fun k => ![a * k, 0, 0]
  thermal := none

theorem len_axis (a : ℝ) : len ![a, 0, 0] = |a| := by
  simp [len, Real.sqrt_mul_self_eq_abs]

theorem pair_stretch (a : ℝ) (ha : 0 ≤ a) : stretch (pair a) 0 1 = a - 1 ∧ stretch (pair a) 1 0 = a - 1 := by
  have e1 : ∀ c : ℝ, (![c * ((1 : Nat) : ℝ), 0, 0] - ![c * ((0 : Nat) : ℝ), 0, 0] : V3) = ![c, 0, 0] := by
    intro c
    funext k
    fin_cases k <;> simp
  have e2 : ∀ c : ℝ, (![c * ((0 : Nat) : ℝ), 0, 0] - ![c * ((1 : Nat) : ℝ), 0, 0] : V3) = ![-c, 0, 0] := by
    intro c
    funext k
    fin_cases k <;> simp
  have f1 : (![((1 : Nat) : ℝ), 0, 0] - ![((0 : Nat) : ℝ), 0, 0] : V3) = ![1, 0, 0] := by
    funext k
    fin_cases k <;> simp
  have f2 : (![((0 : Nat) : ℝ), 0, 0] - ![((1 : Nat) : ℝ), 0, 0] : V3) = ![-1, 0, 0] := by
    funext k
    fin_cases k <;> simp
  constructor
  · simp only [stretch, pair]
    rw [e1, f1, len_axis, len_axis, abs_of_nonneg ha, abs_one, div_one, sub_zero]
  · simp only [stretch, pair]
    rw [e2, f2, len_axis, len_axis, abs_neg, abs_of_nonneg ha, abs_neg, abs_one, div_one, sub_zero]

theorem pair_distinct (a : ℝ) : Distinct (pair a) [0, 1] [[1], [0]] := by
  intro p t i j hb h
  obtain ⟨hi, ns, hn, hj⟩ := hb
  have h0 : (j : ℝ) = i := by
    have := congrFun h 0
    simpa [pair] using this
  have h1 : j = i := by exact_mod_cast h0
  subst h1
  match p, hi, hn with
  | 0, hi, hn =>
    cases hi
    cases hn
    match t, hj with
    | 0, hj => cases hj
  | 1, hi, hn =>
    cases hi
    cases hn
    match t, hj with
    | 0, hj => cases hj

/-- No damage anywhere. -/
def intact : State := ⟨fun _ => 0, fun _ => 0, fun _ => 0, fun _ => 0⟩

/-- The history of the example: a step in which the points are pulled to distance 3, a step back at the initial
distance. The critical stretch is 1. -/
def pullRelease : List (List Input) := [[pair 1, pair 3], [pair 1]]

/-- Non-vacuity of C25 and C26: the pair breaks and stays broken, with point damage 1. -/
example : ∃ s', run (criticalStretch 1 [0, 1] (encode [[1], [0]])) pullRelease intact = .ok s' ∧
    s'.bondN 0 = 1 ∧ s'.pointN 0 = 1 := by
  obtain ⟨s', h⟩ := C25_defined 1 [0, 1] [[1], [0]] pullRelease intact rfl (by
    intro st hst I hI
    simp only [pullRelease, List.mem_cons, List.not_mem_nil, or_false] at hst
    rcases hst with rfl | rfl
    · simp only [List.mem_cons, List.not_mem_nil, or_false] at hI
      rcases hI with rfl | rfl <;> exact pair_distinct _
    · simp only [List.mem_cons, List.not_mem_nil, or_false] at hI
      subst hI
      exact pair_distinct _)
  have hev : Evaluated pullRelease := by
    intro st hst
    simp only [pullRelease, List.mem_cons, List.not_mem_nil, or_false] at hst
    rcases hst with rfl | rfl <;> simp
  have hb : s'.bondN 0 = 1 := (C25_broken_iff 1 [0, 1] [[1], [0]] pullRelease intact s' rfl hev h 0 0 0 1
    ⟨rfl, [1], rfl, rfl⟩ rfl).1 ⟨[pair 1, pair 3], by simp [pullRelease], pair 3, rfl, by
      rw [(pair_stretch 3 (by norm_num)).1]
      norm_num⟩
  refine ⟨s', h, hb, ?_⟩
  rw [C26_fraction 1 [0, 1] [[1], [0]] pullRelease intact s' rfl (by decide) hev (by simp [pullRelease]) h
    (fun _ => Or.inl rfl) 0 0 [1] rfl rfl]
  have e : bondPos [[1], [0]] 0 0 = 0 := rfl
  simp [brokenFraction, e, hb]

/-! ### C27 -/

theorem runStep_user {crit : ℝ} {ids : List Nat} {nbs : List (List Nat)} {I : Input}
    {s s' : State} (hlen : ids.length = nbs.length)
    (h : runStep (fun I => userDefined crit ids (encode nbs) I) [I] s = .ok s') :
    s'.bondNP1 = s.bondN ∧ ∀ p t i j, IsBond ids nbs p t i j →
        s'.bondN (bondPos nbs p t) = afterBond crit (stretch I i j) (s.bondNP1 (bondPos nbs p t)) := by
  rw [runStep] at h
  split at h
  · next s1 h1 =>
    cases h
    obtain ⟨e1, _, e3, _⟩ := damageLoops_spec hlen h1
    exact ⟨e1, e3⟩
  · cases h
  · cases h

/-- C27 is false of the code: with the user-defined time-dependent critical stretch model a pair of points that is
pulled apart beyond the critical stretch in one step and released in the next is broken after the first step and
whole again after the second. -/
theorem C27_bond_heals : ∃ s1 s2,
    run (fun I => userDefined 1 [0, 1] (encode [[1], [0]]) I) [[pair 3]] intact = .ok s1 ∧
    run (fun I => userDefined 1 [0, 1] (encode [[1], [0]]) I) [[pair 3], [pair 1]] intact = .ok s2 ∧
    s1.bondN 0 = 1 ∧ s2.bondN 0 = 0 ∧ s1.pointN 0 = 1 ∧ s2.pointN 0 = 0 := by
  have one : ∀ (a : ℝ) (s : State), ∃ s', runStep (fun I => userDefined 1 [0, 1] (encode [[1], [0]]) I)
      [pair a] s = .ok s' := by
    intro a s
    obtain ⟨s', hs'⟩ := damageLoops_defined (crit := 1) s.bondNP1 s (ids := [0, 1]) (nbs := [[1], [0]]) rfl
      (pair_distinct a)
    exact ⟨s'.update, by rw [runStep]; simp only [userDefined]; rw [hs']; rfl⟩
  have pt : ∀ (a : ℝ) (s s' : State), runStep (fun I => userDefined 1 [0, 1] (encode [[1], [0]]) I)
      [pair a] s = .ok s' → s'.pointN 0 = s'.bondN 0 := by
    intro a s s' h
    rw [runStep] at h
    split at h
    · next t ht =>
      cases h
      have := (damageLoops_spec (nbs := [[1], [0]]) rfl ht).2.2.2 0 0 [1] (by decide) rfl rfl
      simpa [meanDamage, bondPos, State.update] using this
    · cases h
    · cases h
  obtain ⟨s1, h1⟩ := one 3 intact
  obtain ⟨s2, h2⟩ := one 1 s1
  have hb : IsBond [0, 1] [[1], [0]] 0 0 0 1 := ⟨rfl, [1], rfl, rfl⟩
  have e : bondPos [[1], [0]] 0 0 = 0 := rfl
  obtain ⟨a1, a2⟩ := runStep_user (nbs := [[1], [0]]) rfl h1
  obtain ⟨_, b2⟩ := runStep_user (nbs := [[1], [0]]) rfl h2
  have v1 := a2 0 0 0 1 hb
  have v2 := b2 0 0 0 1 hb
  rw [(pair_stretch 3 (by norm_num)).1, e] at v1
  rw [(pair_stretch 1 (by norm_num)).1, e, a1] at v2
  have w1 : s1.bondN 0 = 1 := by
    rw [v1, show intact.bondNP1 0 = 0 from rfl, afterBond_values (Or.inl rfl), if_pos]
    right
    norm_num
  have w2 : s2.bondN 0 = 0 := by
    rw [v2, show intact.bondN 0 = 0 from rfl, afterBond_values (Or.inl rfl), if_neg]
    norm_num
  refine ⟨s1, s2, ?_, ?_, w1, w2, ?_, ?_⟩
  · rw [run, h1]
    rfl
  · rw [run, h1]
    simp only
    rw [run, h2]
    rfl
  · rw [pt 3 _ _ h1, w1]
  · rw [pt 1 _ _ h2, w2]

/-- C27, the part that holds: with one evaluation per step, a bond that is broken after a step is broken again two
steps later (the values two steps back are those the model continues with), and a bond overstretched in a step is
broken after that step. What is missing is that it stays broken in between. -/
theorem C27_every_other_step_partial (crit1 crit2 : ℝ) (ids : List Nat) (nbs : List (List Nat)) (I J : Input)
    (s s1 s2 : State) (hlen : ids.length = nbs.length)
    (h1 : runStep (fun I => userDefined crit1 ids (encode nbs) I) [I] s = .ok s1)
    (h2 : runStep (fun I => userDefined crit2 ids (encode nbs) I) [J] s1 = .ok s2) (p t i j : Nat)
    (hb : IsBond ids nbs p t i j) (hle : s.bondN (bondPos nbs p t) ≤ 1 ∧ s.bondNP1 (bondPos nbs p t) ≤ 1) :
    s.bondN (bondPos nbs p t) ≤ s2.bondN (bondPos nbs p t) ∧
      (crit1 < stretch I i j → s1.bondN (bondPos nbs p t) = 1) ∧
      (crit2 < stretch J i j → s2.bondN (bondPos nbs p t) = 1) := by
  obtain ⟨a1, a2⟩ := runStep_user hlen h1
  obtain ⟨_, b2⟩ := runStep_user hlen h2
  have top : ∀ crit e d : ℝ, d ≤ 1 → crit < e → afterBond crit e d = 1 := by
    intro crit e d hd hc
    unfold afterBond trialDamage
    rw [if_pos hc]
    split
    · rfl
    · linarith
  refine ⟨?_, ?_, ?_⟩
  · rw [b2 p t i j hb, a1]
    exact afterBond_mono _ _ _
  · intro hc
    rw [a2 p t i j hb, top _ _ _ hle.2 hc]
  · intro hc
    rw [b2 p t i j hb, a1, top _ _ _ hle.1 hc]

/-- Non-vacuity: the two steps of `C27_bond_heals`. -/
example : ∃ s1 s2,
    runStep (fun I => userDefined 1 [0, 1] (encode [[1], [0]]) I) [pair 3] intact = .ok s1 ∧
    runStep (fun I => userDefined 1 [0, 1] (encode [[1], [0]]) I) [pair 1] s1 = .ok s2 := by
  obtain ⟨s1, s2, h1, h2, _⟩ := C27_bond_heals
  rw [run] at h1 h2
  split at h1
  · next m hm =>
    rw [hm] at h2
    simp only at h2
    rw [run] at h2
    split at h2
    · next m2 hm2 => exact ⟨m, m2, hm, hm2⟩
    · cases h2
    · cases h2
  · cases h1
  · cases h1

end Verif.Damage
