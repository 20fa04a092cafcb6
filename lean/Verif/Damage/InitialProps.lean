import Verif.Damage.Props
import Verif.Filter.Props

/-!
# Properties C61 and C62: initial damage and the interface-aware model
-/

noncomputable section

namespace Verif.Damage

open Verif Verif.Mech Verif.Neigh Verif.Filter
open scoped Classical

/-! ### C61 -/

/-- Some filter cuts the segment from `a` to `b`. -/
def Cut (fs : List BondFilter) (a b : V3) : Prop := ∃ f ∈ fs, f.shape.cuts a b = .ok true

theorem filter_single (f : BondFilter) (pt nb : V3) :
    f.filterBonds pt 1 (fun _ => nb) [0] [false] = (f.shape.cuts pt nb).map (fun c => [c]) := by
  rw [BondFilter.filterBonds]
  unfold BondFilter.mark
  rw [if_neg (by simp)]
  cases f.shape.cuts pt nb with
  | ok c => cases c <;> rfl
  | fail e => rfl
  | ub => rfl

theorem initialBond_ok {fs : List BondFilter} {pt nb : V3} {v : ℝ} (h : initialBond fs pt nb = .ok v) :
    v = if Cut fs pt nb then 1 else 0 := by
  induction fs generalizing v with
  | nil =>
    cases h
    rw [if_neg]
    rintro ⟨f, hf, _⟩
    cases hf
  | cons f fs ih =>
    rw [initialBond, filter_single] at h
    have hcons : Cut (f :: fs) pt nb ↔ f.shape.cuts pt nb = .ok true ∨ Cut fs pt nb := by
      constructor
      · rintro ⟨g, hg, hc⟩
        rcases List.mem_cons.1 hg with rfl | hg
        · exact Or.inl hc
        · exact Or.inr ⟨g, hg, hc⟩
      · rintro (hc | ⟨g, hg, hc⟩)
        · exact ⟨f, List.mem_cons_self, hc⟩
        · exact ⟨g, List.mem_cons_of_mem _ hg, hc⟩
    cases hf : f.shape.cuts pt nb with
    | ok c =>
      rw [hf] at h
      cases hr : initialBond fs pt nb with
      | ok r =>
        rw [hr] at h
        cases c with
        | true =>
          cases h
          rw [if_pos (hcons.2 (Or.inl hf))]
        | false =>
          cases h
          rw [ih hr]
          have : Cut (f :: fs) pt nb ↔ Cut fs pt nb := by
            rw [hcons, hf]
            simp
          simp only [this]
      | fail e => rw [hr] at h; cases c <;> cases h
      | ub => rw [hr] at h; cases c <;> cases h
    | fail e => rw [hf] at h; cases h
    | ub =>
      rw [hf] at h
      cases hr : initialBond fs pt nb with
      | ok r => rw [hr] at h; cases h
      | fail e => rw [hr] at h; cases h
      | ub => rw [hr] at h; cases h

theorem initialBond_defined {fs : List BondFilter} (hf : ∀ f ∈ fs, NonDegenerate f.shape) (pt nb : V3) :
    ∃ v, initialBond fs pt nb = .ok v := by
  induction fs with
  | nil => exact ⟨0, rfl⟩
  | cons f fs ih =>
    obtain ⟨c, hc⟩ := cuts_defined f.shape (hf f List.mem_cons_self) pt nb
    obtain ⟨r, hr⟩ := ih fun g hg => hf g (List.mem_cons_of_mem _ hg)
    rw [initialBond, filter_single, hc, hr]
    cases c
    · exact ⟨r, rfl⟩
    · exact ⟨1, rfl⟩

theorem initialLoop_spec {fs : List BondFilter} {x : Nat → V3} {ids : List Nat} {bs : List Bond}
    {d d' : Nat → ℝ} (h : initialLoop fs x ids bs d = .ok d') (hn : (bs.map (·.b)).Nodup) :
    (∀ k, k ∉ bs.map (·.b) → d' k = d k) ∧
      ∀ b ∈ bs, ∃ i, ids[b.i]? = some i ∧ d' b.b = if Cut fs (x i) (x b.j) then 1 else 0 := by
  induction bs generalizing d with
  | nil => cases h; exact ⟨fun _ _ => rfl, fun b hb => absurd hb List.not_mem_nil⟩
  | cons b bs ih =>
    rw [initialLoop] at h
    split at h
    · next i hi =>
      split at h
      · next v hv =>
        rw [List.map_cons, List.nodup_cons] at hn
        obtain ⟨ha, hb⟩ := ih h hn.2
        constructor
        · intro k hk
          rw [List.map_cons, List.mem_cons, not_or] at hk
          rw [ha k hk.2, Function.update_of_ne hk.1]
        · intro c hc
          rcases List.mem_cons.1 hc with rfl | hc
          · exact ⟨i, readAt_some hi, by rw [ha _ hn.1, Function.update_self, initialBond_ok hv]⟩
          · exact hb c hc
      · cases h
      · cases h
    · cases h
    · cases h

theorem initialDamage_spec {fs : List BondFilter} {x : Nat → V3} {ids : List Nat} {nbs : List (List Nat)}
    {s s' : State} (hlen : ids.length = nbs.length)
    (h : initialDamage fs x ids (encode nbs) s = .ok s') :
    (∀ p t i j, IsBond ids nbs p t i j →
      s'.bondNP1 (bondPos nbs p t) = (if Cut fs (x i) (x j) then 1 else 0) ∧
      s'.bondN (bondPos nbs p t) = s'.bondNP1 (bondPos nbs p t)) ∧
    (∀ p i ns, ids.Nodup → ids[p]? = some i → nbs[p]? = some ns →
        s'.pointNP1 i = meanDamage s'.bondNP1 (bondPos nbs p 0) ns.length ∧ s'.pointN i = s'.pointNP1 i) := by
  rw [initialDamage, hlen, visited_encode] at h
  simp only at h
  split at h
  · next d hd =>
    split at h
    · next q q' hq hq' =>
      cases h
      obtain ⟨_, hb⟩ := initialLoop_spec hd (bondsOf_nodup nbs)
      constructor
      · intro p t i j hib
        obtain ⟨hi, ns, hn, hj⟩ := hib
        have hm := bond_mem hn hj
        obtain ⟨i', hi', hv⟩ := hb _ hm
        simp only at hi' hv
        rw [hi] at hi'
        cases hi'
        refine ⟨hv, ?_⟩
        simp only
        rw [if_pos (List.mem_map.2 ⟨_, hm, rfl⟩)]
      · intro p i ns hnd hi hn
        have h1 := (pointLoop_spec nbs ids [] 0 0 _ _ hlen rfl hnd (by simpa using hq)).2 p i ns hi hn
        have h2 := (pointLoop_spec nbs ids [] 0 0 _ _ hlen rfl hnd (by simpa using hq')).2 p i ns hi hn
        rw [Nat.zero_add] at h1 h2
        exact ⟨h1, by simp only; rw [h1, h2]⟩
    · cases h
    · cases h
    · cases h
  · cases h
  · cases h

/-- C61: with the initial damage model, after any number of time steps (each with any number of evaluations),
exactly the bonds cut by one of the model's filters are broken, all others are whole, and the damage of each
point is the fraction of its bonds that is broken. -/
theorem C61_initial_damage (fs : List BondFilter) (x : Nat → V3) (ids : List Nat) (nbs : List (List Nat))
    (s s' s'' : State) (hlen : ids.length = nbs.length) (hnd : ids.Nodup)
    (h : initialDamage fs x ids (encode nbs) s = .ok s') (hist : List (List Unit))
    (hr : run initialCompute hist s' = .ok s'') :
    (∀ p t i j, IsBond ids nbs p t i j →
      ((∃ f ∈ fs, f.shape.cuts (x i) (x j) = .ok true) → s''.bondNP1 (bondPos nbs p t) = 1) ∧
      ((¬ ∃ f ∈ fs, f.shape.cuts (x i) (x j) = .ok true) → s''.bondNP1 (bondPos nbs p t) = 0) ∧
      s''.bondN (bondPos nbs p t) = s''.bondNP1 (bondPos nbs p t)) ∧
    (∀ (p i : Nat) (ns : List Nat), ids[p]? = some i → nbs[p]? = some ns →
        s''.pointNP1 i = brokenFraction nbs s''.bondNP1 p ns ∧ s''.pointN i = s''.pointNP1 i) := by
  obtain ⟨hb, hp⟩ := initialDamage_spec hlen h
  have hstep : ∀ (st : List Unit) (u : State), runStep initialCompute st u = .ok u.update := by
    intro st
    induction st with
    | nil => intro u; rfl
    | cons a st ih => intro u; rw [runStep, initialCompute]; exact ih u
  have key : ∀ (hist : List (List Unit)) (u u' : State),
      (∀ p t i j, IsBond ids nbs p t i j →
        u.bondNP1 (bondPos nbs p t) = (if Cut fs (x i) (x j) then 1 else 0) ∧
        u.bondN (bondPos nbs p t) = u.bondNP1 (bondPos nbs p t)) →
      (∀ (p i : Nat) (ns : List Nat), ids[p]? = some i → nbs[p]? = some ns →
        u.pointNP1 i = brokenFraction nbs u.bondNP1 p ns ∧ u.pointN i = u.pointNP1 i) →
      run initialCompute hist u = .ok u' →
      (∀ p t i j, IsBond ids nbs p t i j →
        u'.bondNP1 (bondPos nbs p t) = (if Cut fs (x i) (x j) then 1 else 0) ∧
        u'.bondN (bondPos nbs p t) = u'.bondNP1 (bondPos nbs p t)) ∧
      (∀ (p i : Nat) (ns : List Nat), ids[p]? = some i → nbs[p]? = some ns →
        u'.pointNP1 i = brokenFraction nbs u'.bondNP1 p ns ∧ u'.pointN i = u'.pointNP1 i) := by
    intro hist
    induction hist with
    | nil => intro u u' h1 h2 h3; cases h3; exact ⟨h1, h2⟩
    | cons st hist ih =>
      intro u u' h1 h2 h3
      rw [run, hstep] at h3
      refine ih _ _ ?_ ?_ h3
      · intro p t i j hib
        obtain ⟨a, b⟩ := h1 p t i j hib
        simp only [State.update]
        exact ⟨by rw [b, a], b.symm⟩
      · intro p i ns hi hn
        obtain ⟨a, b⟩ := h2 p i ns hi hn
        simp only [State.update]
        refine ⟨?_, b.symm⟩
        rw [b, a]
        unfold brokenFraction
        split
        · rfl
        · congr 3
          apply List.filter_congr
          intro t ht
          have hlt := List.mem_range.1 ht
          rw [(h1 p t i ns[t] ⟨hi, ns, hn, List.getElem?_eq_getElem hlt⟩).2]
  obtain ⟨k1, k2⟩ := key hist s' s'' hb (by
    intro p i ns hi hn
    obtain ⟨a, b⟩ := hp p i ns hnd hi hn
    refine ⟨?_, b⟩
    rw [a]
    apply meanDamage_fraction
    intro t ht
    rw [(hb p t i ns[t] ⟨hi, ns, hn, List.getElem?_eq_getElem ht⟩).1]
    split
    · exact Or.inr rfl
    · exact Or.inl rfl) hr
  refine ⟨?_, k2⟩
  intro p t i j hib
  obtain ⟨a, b⟩ := k1 p t i j hib
  refine ⟨?_, ?_, b⟩
  · intro hc
    rw [a, if_pos (show Cut fs (x i) (x j) from hc)]
  · intro hc
    rw [a, if_neg (show ¬ Cut fs (x i) (x j) from hc)]

/-- C61, definedness: with filters that are not degenerate the initialisation completes. -/
theorem C61_defined (fs : List BondFilter) (x : Nat → V3) (ids : List Nat) (nbs : List (List Nat))
    (s : State) (hlen : ids.length = nbs.length) (hf : ∀ f ∈ fs, NonDegenerate f.shape) :
    ∃ s', initialDamage fs x ids (encode nbs) s = .ok s' := by
  have h1 : ∀ (bs : List Bond) (d : Nat → ℝ), (∀ b ∈ bs, b.i < ids.length) →
      ∃ d', initialLoop fs x ids bs d = .ok d' := by
    intro bs
    induction bs with
    | nil => intro d _; exact ⟨d, rfl⟩
    | cons b bs ih =>
      intro d hb
      have hlt := hb b List.mem_cons_self
      obtain ⟨v, hv⟩ := initialBond_defined hf (x ids[b.i]) (x b.j)
      rw [initialLoop, readAt_lt _ _ hlt]
      simp only
      rw [hv]
      exact ih _ fun c hc => hb c (List.mem_cons_of_mem _ hc)
  obtain ⟨d, hd⟩ := h1 (bondsOf nbs) s.bondNP1 (by
    intro b hb
    obtain ⟨ns, hn, _⟩ := mem_bondsOf hb
    rw [hlen]
    exact (List.getElem?_eq_some_iff.1 hn).1)
  obtain ⟨q, hq⟩ := pointLoop_defined (d := d) nbs ids [] 0 0 s.pointNP1 hlen rfl
  obtain ⟨q', hq'⟩ := pointLoop_defined (d := d) nbs ids [] 0 0 s.pointN hlen rfl
  rw [List.nil_append] at hq hq'
  rw [initialDamage, hlen, visited_encode]
  simp only
  rw [hd]
  simp only
  rw [hq, hq']
  exact ⟨_, rfl⟩

/-- Non-vacuity: the unit disk at x = 1/2 breaks the bond of two points on the x axis at distance one. -/
example : ∃ s', initialDamage [⟨.disk ⟨![1/2, 0, 0], ![1, 0, 0], 1⟩, false⟩] (pair 1).x [0, 1]
      (encode [[1], [0]]) intact = .ok s' ∧ s'.bondN 0 = 1 ∧ s'.pointN 1 = 1 := by
  obtain ⟨s', h⟩ := C61_defined [⟨.disk ⟨![1/2, 0, 0], ![1, 0, 0], 1⟩, false⟩] (pair 1).x [0, 1] [[1], [0]] intact
    rfl (by simp [NonDegenerate])
  have hcut : ∀ i j : Nat, (i = 0 ∧ j = 1) ∨ (i = 1 ∧ j = 0) →
      (Shape.disk ⟨![1/2, 0, 0], ![1, 0, 0], 1⟩).cuts ((pair 1).x i) ((pair 1).x j) = .ok true := by
    intro i j hij
    rw [Shape.cuts, Disk.cuts]
    have ht : param 1e-15 (![1/2, 0, 0] : V3) ![1, 0, 0] ((pair 1).x i) ((pair 1).x j) = 1/2 := by
      rcases hij with ⟨rfl, rfl⟩ | ⟨rfl, rfl⟩ <;> simp [param, pair] <;> norm_num
    simp only [ht]
    rw [if_neg (by norm_num), if_pos]
    rcases hij with ⟨rfl, rfl⟩ | ⟨rfl, rfl⟩ <;> simp [pointAt, pair] <;> norm_num
  obtain ⟨a, b⟩ := C61_initial_damage _ (pair 1).x [0, 1] [[1], [0]] intact s' s' rfl (by decide) h [] rfl
  have e0 : bondPos [[1], [0]] 0 0 = 0 := rfl
  have e1 : bondPos [[1], [0]] 1 0 = 1 := rfl
  have a0 := a 0 0 0 1 ⟨rfl, [1], rfl, rfl⟩
  have a1 := a 1 0 1 0 ⟨rfl, [0], rfl, rfl⟩
  have b1 := b 1 1 [0] rfl rfl
  rw [e0] at a0
  rw [e1] at a1
  refine ⟨s', h, ?_, ?_⟩
  · rw [a0.2.2]
    exact a0.1 ⟨_, List.mem_singleton.2 rfl, hcut 0 1 (Or.inl ⟨rfl, rfl⟩)⟩
  · rw [b1.2, b1.1]
    have := a1.1 ⟨_, List.mem_singleton.2 rfl, hcut 1 0 (Or.inr ⟨rfl, rfl⟩)⟩
    simp [brokenFraction, e1, this]

/-! ### C62 -/

/-- C62 is false of the code: with the interface-aware model two points that are not deformed at all are separated
in the first step (each has at most two bonds, so it counts as rank deficient and its bonds are broken), and their
bonds are whole again after the second step. -/
theorem C62_bond_heals : ∃ s1 s2,
    interfaceStep 1 (fun _ => 1) [0, 1] (encode [[1], [0]]) [pair 1] (intact, []) = .ok s1 ∧
    interfaceStep 1 (fun _ => 1) [0, 1] (encode [[1], [0]]) [pair 1] s1 = .ok s2 ∧
    s1.1.bondN 0 = 1 ∧ s1.1.bondN 1 = 1 ∧ s2.1.bondN 0 = 0 ∧ s2.1.bondN 1 = 0 := by
  have hv : visitedBonds 2 (encode [[1], [0]]) = .ok [⟨0, 1, 0⟩, ⟨1, 0, 1⟩] := by decide
  have hl : encode [[1], [0]] = [1, 1, 1, 0] := rfl
  have r0 : relativeExtension (pair 1) 0 1 = .ok 0 := by
    rw [relativeExtension_defined (pair_distinct 1 0 0 0 1 ⟨rfl, [1], rfl, rfl⟩),
      (pair_stretch 1 zero_le_one).1, sub_self]
  have r1 : relativeExtension (pair 1) 1 0 = .ok 0 := by
    rw [relativeExtension_defined (pair_distinct 1 1 0 1 0 ⟨rfl, [0], rfl, rfl⟩),
      (pair_stretch 1 zero_le_one).2, sub_self]
  have hloop : ∀ d : Nat → ℝ, d 0 = 0 → d 1 = 0 →
      interfaceLoop 1 (fun _ => 1) (pair 1) [0, 1] [⟨0, 1, 0⟩, ⟨1, 0, 1⟩] d = .ok d := by
    intro d h0 h1
    have t0 : trialDamage 1 0 = 0 := by
      unfold trialDamage
      rw [if_neg (by norm_num)]
    have b0 : interfaceBond 1 (fun _ => 1) (pair 1) [0, 1] d ⟨0, 1, 0⟩ = .ok d := by
      rw [interfaceBond, if_neg (by simp [h0]), if_neg (by norm_num), breakBond]
      have : readAt [0, 1] 0 = .ok 0 := rfl
      simp only [this, r0, t0, h0]
      rw [if_neg (by norm_num)]
    have b1 : interfaceBond 1 (fun _ => 1) (pair 1) [0, 1] d ⟨1, 0, 1⟩ = .ok d := by
      rw [interfaceBond, if_neg (by simp [h1]), if_neg (by norm_num), breakBond]
      have : readAt [0, 1] 1 = .ok 1 := rfl
      simp only [this, r1, t0, h1]
      rw [if_neg (by norm_num)]
    rw [interfaceLoop, b0]
    simp only
    rw [interfaceLoop, b1]
    rfl
  have g0 : readAt [1, 1, 1, 0] 0 = .ok 1 := rfl
  have g2 : readAt [1, 1, 1, 0] (0 + 1 + 1) = .ok 1 := rfl
  -- first step: both points are registered, their bonds broken
  have hs1 : ∃ s1, interfaceStep 1 (fun _ => 1) [0, 1] (encode [[1], [0]]) [pair 1] (intact, []) = .ok s1 ∧
      s1.1.bondN 0 = 1 ∧ s1.1.bondN 1 = 1 ∧ s1.1.bondNP1 = (fun _ => 0) ∧ s1.2 = [0, 1] := by
    rw [interfaceStep, interfaceAware]
    have e2 : [0, 1].length = 2 := rfl
    rw [e2, hv]
    simp only
    rw [hloop intact.bondNP1 rfl rfl]
    simp only
    rw [hl, interfacePoints, g0]
    simp only
    rw [if_pos ⟨by rw [bondSum, bondSum]; simp only [intact]; norm_num, by simp⟩, interfacePoints, g2]
    simp only
    rw [if_pos ⟨by
      rw [bondSum, bondSum]
      simp [breakAll, intact], by simp⟩, interfacePoints]
    refine ⟨_, rfl, ?_, ?_, ?_, ?_⟩
    · simp [State.update, breakAll]
    · simp [State.update, breakAll]
    · rfl
    · rfl
  obtain ⟨s1, h1, a0, a1, a2, a3⟩ := hs1
  have hs2 : ∃ s2, interfaceStep 1 (fun _ => 1) [0, 1] (encode [[1], [0]]) [pair 1] s1 = .ok s2 ∧
      s2.1.bondN 0 = 0 ∧ s2.1.bondN 1 = 0 := by
    rw [interfaceStep, interfaceAware]
    have e2 : [0, 1].length = 2 := rfl
    rw [e2, hv]
    simp only
    rw [a2, hloop (fun _ => 0) rfl rfl]
    simp only
    rw [hl, interfacePoints, g0]
    simp only
    rw [if_neg (by rw [a3]; simp), interfacePoints, g2]
    simp only
    rw [if_neg (by rw [a3]; simp), interfacePoints]
    exact ⟨_, rfl, rfl, rfl⟩
  obtain ⟨s2, h2, b0, b1⟩ := hs2
  exact ⟨s1, s2, h1, h2, a0, a1, b0, b1⟩

theorem interfaceLoop_mono {crit : ℝ} {crits : Nat → ℝ} {I : Input} {ids : List Nat} {bs : List Bond}
    {d d' : Nat → ℝ} (h : interfaceLoop crit crits I ids bs d = .ok d') (k : Nat) : d k ≤ d' k := by
  induction bs generalizing d with
  | nil => cases h; exact le_refl _
  | cons b bs ih =>
    rw [interfaceLoop] at h
    split at h
    · next d1 h1 =>
      refine le_trans ?_ (ih h)
      rw [interfaceBond] at h1
      split at h1
      · cases h1; exact le_refl _
      · obtain ⟨i, _, hd⟩ := breakBond_ok h1
        rw [hd]
        by_cases hk : k = b.b
        · subst hk
          rw [Function.update_self]
          exact afterBond_mono _ _ _
        · rw [Function.update_of_ne hk]
    · cases h
    · cases h

theorem interfacePoints_mono {l ids : List Nat} {pos bi : Nat} {d dm d' dm' : Nat → ℝ} {set set' : List Nat}
    (h : interfacePoints l ids pos bi d dm set = .ok (d', dm', set')) (hd : ∀ k, d k ≤ 1) :
    (∀ k, d k ≤ d' k) ∧ ∀ i ∈ set, i ∈ set' := by
  induction ids generalizing pos bi d dm set with
  | nil => cases h; exact ⟨fun _ => le_refl _, fun _ hi => hi⟩
  | cons i ids ih =>
    rw [interfacePoints] at h
    split at h
    · next k hk =>
      simp only at h
      split at h
      · obtain ⟨a, b⟩ := ih h (by
          intro j
          unfold breakAll
          split
          · exact le_refl _
          · exact hd j)
        refine ⟨fun j => le_trans ?_ (a j), fun j hj => b j (List.mem_append_left _ hj)⟩
        unfold breakAll
        split
        · exact hd j
        · exact le_refl _
      · exact ih h hd
    · cases h
    · cases h

/-- C62, the part that holds: within one evaluation of the interface-aware model no bond damage at step NP1
decreases, and points registered as rank deficient stay registered.  What is missing is that the model continues
from the values of the last completed step: it continues from those of the step before that. -/
theorem C62_evaluation_monotone_partial (crit : ℝ) (crits : Nat → ℝ) (ids l : List Nat) (I : Input)
    (s s' : State × List Nat) (h : interfaceAware crit crits ids l I s = .ok s')
    (h1 : ∀ k, s.1.bondNP1 k = 0 ∨ s.1.bondNP1 k = 1) :
    (∀ k, s.1.bondNP1 k ≤ s'.1.bondNP1 k) ∧ (∀ i ∈ s.2, i ∈ s'.2) ∧ s'.1.bondN = s.1.bondN := by
  have hone : ∀ (bs : List Bond) (d d' : Nat → ℝ), interfaceLoop crit crits I ids bs d = .ok d' →
      (∀ k, d k ≤ 1) → ∀ k, d' k ≤ 1 := by
    intro bs
    induction bs with
    | nil => intro d d' h hd; cases h; exact hd
    | cons b bs ih =>
      intro d d' h hd
      rw [interfaceLoop] at h
      split at h
      · next d1 hd1 =>
        refine ih d1 d' h ?_
        intro k
        rw [interfaceBond] at hd1
        split at hd1
        · cases hd1; exact hd k
        · obtain ⟨i, _, he⟩ := breakBond_ok hd1
          rw [he]
          by_cases hk : k = b.b
          · subst hk
            rw [Function.update_self]
            have ht : ∀ c r : ℝ, trialDamage c r ≤ 1 := by
              intro c r
              unfold trialDamage
              split
              · exact le_refl _
              · exact zero_le_one
            have ha : ∀ c r v : ℝ, v ≤ 1 → afterBond c r v ≤ 1 := by
              intro c r v hv
              unfold afterBond
              split
              · exact ht c r
              · exact hv
            exact ha _ _ _ (hd _)
          · rw [Function.update_of_ne hk]
            exact hd k
      · cases h
      · cases h
  rw [interfaceAware] at h
  split at h
  · next bs hbs =>
    split at h
    · next d hd =>
      split at h
      · next d' p set hp =>
        cases h
        have hle := hone bs _ _ hd fun k => by rcases h1 k with h | h <;> rw [h] <;> norm_num
        obtain ⟨a, b⟩ := interfacePoints_mono hp hle
        exact ⟨fun k => le_trans (interfaceLoop_mono hd k) (a k), b, rfl⟩
      · cases h
      · cases h
    · cases h
    · cases h
  · cases h
  · cases h

/-- Non-vacuity: the first step of `C62_bond_heals` evaluates the model once. -/
example : ∃ s', interfaceAware 1 (fun _ => 1) [0, 1] (encode [[1], [0]]) (pair 1) (intact, []) = .ok s' := by
  obtain ⟨s1, _, h, _⟩ := C62_bond_heals
  rw [interfaceStep] at h
  split at h
  · next s' hs => exact ⟨s', hs⟩
  · cases h
  · cases h

end Verif.Damage
