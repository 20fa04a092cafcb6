import Verif.Damage.Spec
import Verif.Mech.Plastic
import Verif.Mech.Defined
import Mathlib.Algebra.Order.BigOperators.Group.List
import Mathlib.Tactic.FieldSimp

/-! Lemmas for C25 to C28. -/

noncomputable section

namespace Verif.Damage

open Verif Verif.Mech Verif.Neigh
open scoped Classical

theorem bond_mem {nbs : List (List Nat)} {p t j : Nat} {ns : List Nat} (hp : nbs[p]? = some ns)
    (ht : ns[t]? = some j) : (⟨p, j, bondPos nbs p t⟩ : Bond) ∈ bondsOf nbs := by
  have h : (⟨p, j, bondPos nbs p t⟩ : Bond) ∈ (bondsOf nbs).filter fun b => b.i = p := by
    rw [filter_bondsOf nbs hp]
    exact List.mem_map.2 ⟨(j, t), List.mk_mem_zipIdx_iff_getElem?.2 ht, rfl⟩
  exact (List.mem_filter.1 h).1

theorem readAt_some {α : Type} {l : List α} {i : Nat} {x : α} (h : readAt l i = .ok x) : l[i]? = some x := by
  unfold readAt at h
  split at h
  · next hx => cases h; exact hx
  · cases h

theorem readAt_of_some {α : Type} {l : List α} {i : Nat} {x : α} (h : l[i]? = some x) :
    readAt l i = .ok x := by
  rw [readAt, h]

theorem relativeExtension_ok {I : Input} {i j : Nat} {e : ℝ} (h : relativeExtension I i j = .ok e) :
    e = stretch I i j := by
  simp only [relativeExtension] at h
  split at h
  · cases h
  · next h0 =>
    cases h
    unfold stretch
    cases I.thermal with
    | none => simp only; field_simp; ring
    | some a => simp only; field_simp; ring

theorem relativeExtension_defined {I : Input} {i j : Nat} (h : I.x j ≠ I.x i) :
    relativeExtension I i j = .ok (stretch I i j) := by
  have h0 : len (I.x j - I.x i) ≠ 0 := fun h' => h (sub_eq_zero.1 (len_eq_zero.1 h'))
  have h1 : ∃ e, relativeExtension I i j = .ok e := by
    simp only [relativeExtension]
    rw [if_neg h0]
    exact ⟨_, rfl⟩
  obtain ⟨e, he⟩ := h1
  rw [he, relativeExtension_ok he]

/-- The damage of a bond after its turn in the loop. -/
def afterBond (crit e d : ℝ) : ℝ :=
  if trialDamage crit e > d then trialDamage crit e else d

theorem breakBond_ok {crit : ℝ} {I : Input} {ids : List Nat} {d d' : Nat → ℝ} {b : Bond}
    (h : breakBond crit I ids d b = .ok d') :
    ∃ i, ids[b.i]? = some i ∧ d' = Function.update d b.b (afterBond crit (stretch I i b.j) (d b.b)) := by
  unfold breakBond at h
  split at h
  · next i hi =>
    refine ⟨i, readAt_some hi, ?_⟩
    split at h
    · next e he =>
      rw [← relativeExtension_ok he]
      unfold afterBond
      split at h
      · next hc => cases h; rw [if_pos hc]
      · next hc => cases h; rw [if_neg hc, Function.update_eq_self]
    · cases h
    · cases h
  · cases h
  · cases h

theorem breakLoop_spec {crit : ℝ} {I : Input} {ids : List Nat} {bs : List Bond} {d d' : Nat → ℝ}
    (h : breakLoop crit I ids bs d = .ok d') (hn : (bs.map (·.b)).Nodup) :
    (∀ k, k ∉ bs.map (·.b) → d' k = d k) ∧
      ∀ b ∈ bs, ∃ i, ids[b.i]? = some i ∧ d' b.b = afterBond crit (stretch I i b.j) (d b.b) := by
  induction bs generalizing d with
  | nil => cases h; exact ⟨fun _ _ => rfl, fun b hb => absurd hb List.not_mem_nil⟩
  | cons b bs ih =>
    rw [breakLoop] at h
    split at h
    · next d1 h1 =>
      obtain ⟨i, hi, hd1⟩ := breakBond_ok h1
      rw [List.map_cons, List.nodup_cons] at hn
      obtain ⟨ha, hb⟩ := ih h hn.2
      constructor
      · intro k hk
        rw [List.map_cons, List.mem_cons, not_or] at hk
        rw [ha k hk.2, hd1, Function.update_of_ne hk.1]
      · intro c hc
        rcases List.mem_cons.1 hc with rfl | hc
        · exact ⟨i, hi, by rw [ha _ hn.1, hd1, Function.update_self]⟩
        · obtain ⟨i', hi', hv⟩ := hb c hc
          have hne : c.b ≠ b.b := fun h' => hn.1 (h' ▸ List.mem_map.2 ⟨c, hc, rfl⟩)
          exact ⟨i', hi', by rw [hv, hd1, Function.update_of_ne hne]⟩
    · cases h
    · cases h

theorem breakLoop_defined {crit : ℝ} {I : Input} {ids : List Nat} {bs : List Bond} (d : Nat → ℝ)
    (h : ∀ b ∈ bs, ∃ i, ids[b.i]? = some i ∧ I.x b.j ≠ I.x i) :
    ∃ d', breakLoop crit I ids bs d = .ok d' := by
  induction bs generalizing d with
  | nil => exact ⟨d, rfl⟩
  | cons b bs ih =>
    obtain ⟨i, hi, hx⟩ := h b List.mem_cons_self
    have h1 : ∃ d1, breakBond crit I ids d b = .ok d1 := by
      unfold breakBond
      rw [readAt_of_some hi]
      simp only
      rw [relativeExtension_defined hx]
      simp only
      split <;> exact ⟨_, rfl⟩
    obtain ⟨d1, h1⟩ := h1
    rw [breakLoop, h1]
    exact ih d1 fun b' hb' => h b' (List.mem_cons_of_mem _ hb')

theorem bondSum_eq (d : Nat → ℝ) (b k : Nat) (t : ℝ) :
    bondSum d b k t = t + ((List.range k).map fun i => d (b + i)).sum := by
  induction k generalizing b t with
  | zero => simp [bondSum]
  | succ k ih =>
    rw [bondSum, ih, List.range_succ_eq_map, List.map_cons, List.map_map, List.sum_cons, Nat.add_zero]
    have : (fun i => d (b + 1 + i)) = (fun i => d (b + i)) ∘ Nat.succ := by
      funext i
      simp only [Function.comp_apply]
      congr 1
      omega
    rw [this, add_assoc]
    rfl

/-- The mean damage of `k` bonds beginning at position `b`. -/
def meanDamage (d : Nat → ℝ) (b k : Nat) : ℝ :=
  if k > 0 then ((List.range k).map fun i => d (b + i)).sum / k else 0

theorem pointLoop_spec {d : Nat → ℝ} (nbs : List (List Nat)) (ids : List Nat)
    (pre : List Nat) (pos bi : Nat) (dm dm' : Nat → ℝ)
    (hlen : ids.length = nbs.length) (hpos : pos = pre.length) (hnd : ids.Nodup)
    (h : pointLoop (pre ++ encode nbs) d ids pos bi dm = .ok dm') :
    (∀ k, k ∉ ids → dm' k = dm k) ∧
      ∀ p i ns, ids[p]? = some i → nbs[p]? = some ns →
        dm' i = meanDamage d (bi + bondPos nbs p 0) ns.length := by
  induction nbs generalizing ids pre pos bi dm with
  | nil =>
    cases ids with
    | nil => cases h; exact ⟨fun _ _ => rfl, fun p i ns hp => by simp at hp⟩
    | cons => simp at hlen
  | cons ns nbs ih =>
    cases ids with
    | nil => simp at hlen
    | cons i ids =>
      have hr : readAt (pre ++ encode (ns :: nbs)) pos = .ok ns.length := by
        have : pre ++ encode (ns :: nbs) = pre ++ ns.length :: (ns ++ encode nbs) := by
          simp [encode]
        rw [this]
        exact readAt_mid pre _ _ _ hpos
      rw [pointLoop, hr] at h
      simp only at h
      have e : pre ++ encode (ns :: nbs) = (pre ++ (ns.length :: ns)) ++ encode nbs := by
        simp [encode]
      rw [e] at h
      rw [List.nodup_cons] at hnd
      obtain ⟨ha, hb⟩ := ih ids (pre ++ (ns.length :: ns)) (pos + 1 + ns.length) (bi + ns.length) _
        (by simpa using hlen) (by simp [hpos]; omega) hnd.2 h
      constructor
      · intro k hk
        rw [List.mem_cons, not_or] at hk
        rw [ha k hk.2, Function.update_of_ne hk.1]
      · intro p i' ns' hp hn
        cases p with
        | zero =>
          rw [List.getElem?_cons_zero] at hp hn
          cases hp
          cases hn
          rw [ha _ hnd.1, Function.update_self, meanDamage]
          split
          · rw [bondSum_eq, zero_add]
            simp [bondPos]
          · rfl
        | succ p =>
          rw [List.getElem?_cons_succ] at hp hn
          rw [hb p i' ns' hp hn]
          congr 1
          simp only [bondPos, List.take_succ_cons, List.map_cons, List.sum_cons]
          omega

theorem pointLoop_defined {d : Nat → ℝ} (nbs : List (List Nat)) (ids : List Nat)
    (pre : List Nat) (pos bi : Nat) (dm : Nat → ℝ)
    (hlen : ids.length = nbs.length) (hpos : pos = pre.length) :
    ∃ dm', pointLoop (pre ++ encode nbs) d ids pos bi dm = .ok dm' := by
  induction nbs generalizing ids pre pos bi dm with
  | nil =>
    cases ids with
    | nil => exact ⟨dm, rfl⟩
    | cons => simp at hlen
  | cons ns nbs ih =>
    cases ids with
    | nil => simp at hlen
    | cons i ids =>
      have hr : readAt (pre ++ encode (ns :: nbs)) pos = .ok ns.length := by
        have : pre ++ encode (ns :: nbs) = pre ++ ns.length :: (ns ++ encode nbs) := by
          simp [encode]
        rw [this]
        exact readAt_mid pre _ _ _ hpos
      rw [pointLoop, hr]
      simp only
      have e : pre ++ encode (ns :: nbs) = (pre ++ (ns.length :: ns)) ++ encode nbs := by
        simp [encode]
      rw [e]
      exact ih ids _ _ _ _ (by simpa using hlen) (by simp [hpos]; omega)

/-- What the two loops do to bonds and points. -/
theorem damageLoops_spec {crit : ℝ} {I : Input} {ids : List Nat} {nbs : List (List Nat)} {d : Nat → ℝ}
    {s s' : State} (hlen : ids.length = nbs.length)
    (h : damageLoops crit I ids (encode nbs) d s = .ok s') :
    s'.bondN = s.bondN ∧ s'.pointN = s.pointN ∧
      (∀ p t i j, IsBond ids nbs p t i j →
        s'.bondNP1 (bondPos nbs p t) = afterBond crit (stretch I i j) (d (bondPos nbs p t))) ∧
      (∀ p i ns, ids.Nodup → ids[p]? = some i → nbs[p]? = some ns →
        s'.pointNP1 i = meanDamage s'.bondNP1 (bondPos nbs p 0) ns.length) := by
  rw [damageLoops, hlen, visited_encode] at h
  simp only at h
  split at h
  · next d' hd =>
    split at h
    · next p hp =>
      cases h
      obtain ⟨_, hb⟩ := breakLoop_spec hd (bondsOf_nodup nbs)
      refine ⟨rfl, rfl, ?_, ?_⟩
      · intro p t i j hib
        obtain ⟨hi, ns, hn, hj⟩ := hib
        obtain ⟨i', hi', hv⟩ := hb _ (bond_mem hn hj)
        simp only at hi' hv
        rw [hi] at hi'
        cases hi'
        exact hv
      · intro q i ns hnd hi hn
        have := (pointLoop_spec nbs ids [] 0 0 _ _ hlen rfl hnd (by simpa using hp)).2 q i ns hi hn
        rwa [Nat.zero_add] at this
    · cases h
    · cases h
  · cases h
  · cases h

theorem damageLoops_defined {crit : ℝ} {I : Input} {ids : List Nat} {nbs : List (List Nat)} (d : Nat → ℝ)
    (s : State) (hlen : ids.length = nbs.length) (hx : Distinct I ids nbs) :
    ∃ s', damageLoops crit I ids (encode nbs) d s = .ok s' := by
  rw [damageLoops, hlen, visited_encode]
  simp only
  obtain ⟨d', hd⟩ := breakLoop_defined (crit := crit) (I := I) (ids := ids) (bs := bondsOf nbs) d (by
    intro b hb
    obtain ⟨t, ⟨ns, hn, hj⟩, _⟩ := bondsOf_pos hb
    have hlt : b.i < ids.length := by
      rw [hlen]
      exact (List.getElem?_eq_some_iff.1 hn).1
    exact ⟨ids[b.i], List.getElem?_eq_getElem hlt,
      hx b.i t _ b.j ⟨List.getElem?_eq_getElem hlt, ns, hn, hj⟩⟩)
  rw [hd]
  simp only
  obtain ⟨p, hp⟩ := pointLoop_defined (d := d') nbs ids [] 0 0 s.pointNP1 hlen rfl
  rw [List.nil_append] at hp
  rw [hp]
  exact ⟨_, rfl⟩

/-- The bond damage and the point damage after the last evaluation of a step in which every evaluation
starts from step N. -/
theorem runStep_critical {crit : ℝ} {ids : List Nat} {nbs : List (List Nat)} {st : List Input}
    {s s' : State} {I : Input} (hlen : ids.length = nbs.length) (hl : st.getLast? = some I)
    (h : runStep (criticalStretch crit ids (encode nbs)) st s = .ok s') :
    (∀ p t i j, IsBond ids nbs p t i j →
        s'.bondN (bondPos nbs p t) = afterBond crit (stretch I i j) (s.bondN (bondPos nbs p t))) ∧
      (∀ p i ns, ids.Nodup → ids[p]? = some i → nbs[p]? = some ns →
        s'.pointN i = meanDamage s'.bondN (bondPos nbs p 0) ns.length) := by
  induction st generalizing s with
  | nil => simp at hl
  | cons J st ih =>
    rw [runStep] at h
    split at h
    · next s1 h1 =>
      obtain ⟨e1, _, e3, e4⟩ := damageLoops_spec hlen h1
      cases st with
      | nil =>
        rw [List.getLast?_singleton] at hl
        cases hl
        cases h
        exact ⟨e3, e4⟩
      | cons K st =>
        rw [List.getLast?_cons_cons] at hl
        have := ih hl h
        rwa [e1] at this
    · cases h
    · cases h

theorem afterBond_values {crit e d : ℝ} (h : d = 0 ∨ d = 1) :
    afterBond crit e d = if d = 1 ∨ crit < e then 1 else 0 := by
  unfold afterBond trialDamage
  rcases h with rfl | rfl
  · by_cases hc : crit < e
    · simp [hc]
    · simp [hc]
  · by_cases hc : crit < e
    · simp [hc]
    · simp [hc]

theorem afterBond_mono (crit e d : ℝ) : d ≤ afterBond crit e d := by
  unfold afterBond
  split
  · next h => exact h.le
  · exact le_refl d

theorem meanDamage_fraction {d : Nat → ℝ} {nbs : List (List Nat)} {p : Nat} {ns : List Nat}
    (h : ∀ t < ns.length, d (bondPos nbs p t) = 0 ∨ d (bondPos nbs p t) = 1) :
    meanDamage d (bondPos nbs p 0) ns.length = brokenFraction nbs d p ns := by
  unfold meanDamage brokenFraction
  by_cases h0 : ns.length = 0
  · rw [if_neg (by omega), if_pos h0]
  · rw [if_pos (by omega), if_neg h0]
    congr 1
    have key : ∀ l : List Nat, (∀ t ∈ l, d (bondPos nbs p t) = 0 ∨ d (bondPos nbs p t) = 1) →
        (l.map fun i => d (bondPos nbs p 0 + i)).sum =
          ((l.filter fun t => d (bondPos nbs p t) = 1).length : ℝ) := by
      intro l
      induction l with
      | nil => intro _; simp
      | cons t l ih =>
        intro hl
        have e : bondPos nbs p 0 + t = bondPos nbs p t := by simp [bondPos]
        rw [List.map_cons, List.sum_cons, ih fun u hu => hl u (List.mem_cons_of_mem _ hu), e]
        rcases hl t List.mem_cons_self with hz | hz
        · rw [List.filter_cons_of_neg (by simp [hz]), hz, zero_add]
        · rw [List.filter_cons_of_pos (by simp [hz]), hz, List.length_cons]
          push_cast
          ring
    exact key _ fun t ht => h t (List.mem_range.1 ht)

end Verif.Damage
