import Verif.Damage.Lemmas

/-! Lemmas for C28. -/

noncomputable section

namespace Verif.Damage

open Verif Verif.Mech Verif.Neigh
open scoped Classical

theorem vmTemp_ok {P : VMParams} {s t : ℝ} (h : vmTemp P s = .ok t) : t = ramp P s := by
  unfold vmTemp at h
  unfold ramp
  split at h
  · cases h
  · split at h
    · next h1 => cases h; rw [if_pos h1]
    · next h1 =>
      rw [if_neg h1]
      split at h
      · next h2 => cases h; rw [if_pos h2]
      · next h2 =>
        rw [if_neg h2]
        split at h
        · cases h
        · cases h; rfl

theorem vmTemp_defined {P : VMParams} (hs : P.stress ≠ 0) (hc : P.threshold ≤ P.critical) (s : ℝ) :
    ∃ t, vmTemp P s = .ok t := by
  unfold vmTemp
  rw [if_neg hs]
  split
  · exact ⟨_, rfl⟩
  · next h1 =>
    split
    · exact ⟨_, rfl⟩
    · next h2 =>
      rw [if_neg]
      · exact ⟨_, rfl⟩
      · intro h0
        have h3 : ¬ P.critical ≤ s / P.stress := h1
        rw [not_le] at h3 h2
        linarith

theorem ramp_bounds {P : VMParams} (s : ℝ) : 0 ≤ ramp P s ∧ ramp P s ≤ 1 := by
  unfold ramp
  split
  · exact ⟨zero_le_one, le_refl _⟩
  · next h1 =>
    split
    · exact ⟨le_refl _, zero_le_one⟩
    · next h2 =>
      rw [not_le] at h1 h2
      have hp : 0 < P.critical - P.threshold := by linarith
      constructor
      · exact div_nonneg (by linarith) hp.le
      · rw [div_le_one hp]
        linarith

theorem vmLoop_spec {P : VMParams} {G : Geo} {stress : Nat → ℝ} {bs : List Bond} {d avg d' avg' : Nat → ℝ}
    (h : vmLoop P G stress bs d avg = .ok (d', avg')) (hn : (bs.map (·.b)).Nodup) :
    (∀ k, k ∉ bs.map (·.b) → d' k = d k) ∧ ∀ b ∈ bs, d' b.b = max (d b.b) (ramp P (stress b.b)) := by
  induction bs generalizing d avg with
  | nil => cases h; exact ⟨fun _ _ => rfl, fun b hb => absurd hb List.not_mem_nil⟩
  | cons b bs ih =>
    rw [vmLoop] at h
    split at h
    · next t w h1 h2 =>
      rw [vmTemp_ok h1] at h
      rw [List.map_cons, List.nodup_cons] at hn
      obtain ⟨ha, hb⟩ := ih h hn.2
      constructor
      · intro k hk
        rw [List.map_cons, List.mem_cons, not_or] at hk
        rw [ha k hk.2, Function.update_of_ne hk.1]
      · intro c hc
        rcases List.mem_cons.1 hc with rfl | hc
        · rw [ha _ hn.1, Function.update_self]
          split
          · next hlt => rw [max_eq_right hlt.le]
          · next hlt => rw [max_eq_left (not_lt.1 hlt)]
        · have hne : c.b ≠ b.b := fun h' => hn.1 (h' ▸ List.mem_map.2 ⟨c, hc, rfl⟩)
          rw [hb c hc, Function.update_of_ne hne]
    · cases h
    · cases h
    · cases h

theorem weight_defined {G : Geo} {b : Bond} (h : G.m b.i ≠ 0) : ∃ w, G.weight b = .ok w := by
  unfold Geo.weight
  rw [if_neg h]
  exact ⟨_, rfl⟩

theorem vmLoop_defined {P : VMParams} {G : Geo} {stress : Nat → ℝ} {bs : List Bond} (d avg : Nat → ℝ)
    (hs : P.stress ≠ 0) (hc : P.threshold ≤ P.critical) (hm : ∀ b ∈ bs, G.m b.i ≠ 0) :
    ∃ r, vmLoop P G stress bs d avg = .ok r := by
  induction bs generalizing d avg with
  | nil => exact ⟨_, rfl⟩
  | cons b bs ih =>
    obtain ⟨t, ht⟩ := vmTemp_defined hs hc (stress b.b)
    obtain ⟨w, hw⟩ := weight_defined (hm b List.mem_cons_self)
    rw [vmLoop, ht, hw]
    exact ih _ _ fun c hc' => hm c (List.mem_cons_of_mem _ hc')

theorem vonMises_spec {P : VMParams} {nbs : List (List Nat)} {I : Geo × (Nat → ℝ)} {s s' : VMState}
    (h : vonMises P nbs.length (encode nbs) I s = .ok s') :
    s'.bondN = s.bondN ∧ ∀ p t ns, nbs[p]? = some ns → t < ns.length →
      s'.bondNP1 (bondPos nbs p t) = max (s.bondN (bondPos nbs p t)) (ramp P (I.2 (bondPos nbs p t))) := by
  rw [vonMises, visited_encode] at h
  simp only at h
  split at h
  · next d avg hd =>
    cases h
    refine ⟨rfl, ?_⟩
    intro p t ns hp ht
    exact (vmLoop_spec hd (bondsOf_nodup nbs)).2 _ (bond_mem hp (List.getElem?_eq_getElem ht))
  · cases h
  · cases h

theorem vmStep_spec {P : VMParams} {nbs : List (List Nat)} {st : List (Geo × (Nat → ℝ))} {s s' : VMState}
    {I : Geo × (Nat → ℝ)} (hl : st.getLast? = some I)
    (h : vmStep P nbs.length (encode nbs) st s = .ok s') :
    ∀ p t ns, nbs[p]? = some ns → t < ns.length →
      s'.bondN (bondPos nbs p t) = max (s.bondN (bondPos nbs p t)) (ramp P (I.2 (bondPos nbs p t))) := by
  induction st generalizing s with
  | nil => simp at hl
  | cons J st ih =>
    rw [vmStep] at h
    split at h
    · next s1 h1 =>
      obtain ⟨e1, e2⟩ := vonMises_spec h1
      cases st with
      | nil =>
        rw [List.getLast?_singleton] at hl
        cases hl
        cases h
        exact e2
      | cons K st =>
        rw [List.getLast?_cons_cons] at hl
        have := ih hl h
        rwa [e1] at this
    · cases h
    · cases h

/-! ### Johnson-Cook -/

/-- The increment of the damage parameter in one evaluation. -/
def jcIncrement (P : JCParams) (I : JCInput) (k : Nat) : ℝ :=
  max 0 ((I.eqN k - I.eqNP1 k) / epsF P (I.triax k))

theorem jcParameter_ok {P : JCParams} {dN a c x d : ℝ} (h : jcParameter P dN a c x = .ok d) :
    d = min 1 (dN + max 0 ((a - c) / epsF P x)) := by
  unfold jcParameter at h
  split at h
  · cases h
  · simp only at h
    injection h with h
    rw [← h]
    have e : (if (a - c) / epsF P x > 0 then dN + (a - c) / epsF P x else dN) =
        dN + max 0 ((a - c) / epsF P x) := by
      split
      · next hp => rw [max_eq_right (le_of_lt hp)]
      · next hp => rw [max_eq_left (not_lt.1 hp), add_zero]
    rw [e]
    split
    · next h1 => rw [min_eq_left h1]
    · next h1 => rw [min_eq_right (not_le.1 h1).le]

theorem jcBond_ok {P : JCParams} {d bd : ℝ} (h : jcBond P d = .ok bd) :
    bd = if P.threshold < d then (d - P.threshold) / (1 - P.threshold) else 0 := by
  unfold jcBond at h
  split at h
  · next h1 =>
    rw [if_pos h1]
    split at h
    · cases h
    · cases h; rfl
  · next h1 => cases h; rw [if_neg h1]

theorem jcLoop_spec {P : JCParams} {I : JCInput} {parN : Nat → ℝ} {bs : List Bond} {s s' : JCState}
    (h : jcLoop P I parN bs s = .ok s') (hn : (bs.map (·.b)).Nodup) :
    s'.parN = s.parN ∧
    (∀ k, k ∉ bs.map (·.b) → s'.parNP1 k = s.parNP1 k ∧ s'.bondNP1 k = s.bondNP1 k) ∧
      ∀ b ∈ bs, s'.parNP1 b.b = min 1 (parN b.b + jcIncrement P I b.b) ∧
        s'.bondNP1 b.b = if P.threshold < s'.parNP1 b.b then
          (s'.parNP1 b.b - P.threshold) / (1 - P.threshold) else 0 := by
  induction bs generalizing s with
  | nil => cases h; exact ⟨rfl, fun _ _ => ⟨rfl, rfl⟩, fun b hb => absurd hb List.not_mem_nil⟩
  | cons b bs ih =>
    rw [jcLoop] at h
    split at h
    · next d w h1 h2 =>
      split at h
      · next bd h3 =>
        rw [List.map_cons, List.nodup_cons] at hn
        obtain ⟨h0, ha, hb⟩ := ih h hn.2
        refine ⟨h0, ?_, ?_⟩
        · intro k hk
          rw [List.map_cons, List.mem_cons, not_or] at hk
          have := ha k hk.2
          simp only [Function.update_of_ne hk.1] at this
          exact this
        · intro c hc
          rcases List.mem_cons.1 hc with rfl | hc
          · have := ha _ hn.1
            simp only [Function.update_self] at this
            rw [this.1, this.2, jcBond_ok h3, jcParameter_ok h1]
            exact ⟨rfl, rfl⟩
          · exact hb c hc
      · cases h
      · cases h
    · cases h
    · cases h
    · cases h

theorem jcLoop_defined {P : JCParams} {I : JCInput} {parN : Nat → ℝ} {bs : List Bond} (s : JCState)
    (ht : P.threshold < 1) (he : ∀ b ∈ bs, epsF P (I.triax b.b) ≠ 0) (hm : ∀ b ∈ bs, I.geo.m b.i ≠ 0) :
    ∃ s', jcLoop P I parN bs s = .ok s' := by
  induction bs generalizing s with
  | nil => exact ⟨_, rfl⟩
  | cons b bs ih =>
    have h1 : ∃ d, jcParameter P (parN b.b) (I.eqN b.b) (I.eqNP1 b.b) (I.triax b.b) = .ok d := by
      unfold jcParameter
      rw [if_neg (he b List.mem_cons_self)]
      exact ⟨_, rfl⟩
    obtain ⟨d, h1⟩ := h1
    obtain ⟨w, hw⟩ := weight_defined (hm b List.mem_cons_self)
    have h2 : ∃ bd, jcBond P d = .ok bd := by
      unfold jcBond
      split
      · rw [if_neg (by intro h0; linarith)]
        exact ⟨_, rfl⟩
      · exact ⟨_, rfl⟩
    obtain ⟨bd, h2⟩ := h2
    rw [jcLoop, h1, hw]
    simp only
    rw [h2]
    exact ih _ (fun c hc => he c (List.mem_cons_of_mem _ hc)) fun c hc => hm c (List.mem_cons_of_mem _ hc)

theorem johnsonCook_spec {P : JCParams} {nbs : List (List Nat)} {I : JCInput} {s s' : JCState}
    (h : johnsonCook P nbs.length (encode nbs) I s = .ok s') :
    s'.parN = s.parN ∧ ∀ p t ns, nbs[p]? = some ns → t < ns.length →
      s'.parNP1 (bondPos nbs p t) = min 1 (s.parN (bondPos nbs p t) + jcIncrement P I (bondPos nbs p t)) ∧
      s'.bondNP1 (bondPos nbs p t) = if P.threshold < s'.parNP1 (bondPos nbs p t) then
          (s'.parNP1 (bondPos nbs p t) - P.threshold) / (1 - P.threshold) else 0 := by
  rw [johnsonCook, visited_encode] at h
  simp only at h
  split at h
  · next s1 h1 =>
    cases h
    obtain ⟨e1, _, e3⟩ := jcLoop_spec h1 (bondsOf_nodup nbs)
    refine ⟨e1, ?_⟩
    intro p t ns hp ht
    exact e3 _ (bond_mem hp (List.getElem?_eq_getElem ht))
  · cases h
  · cases h

theorem jcStep_spec {P : JCParams} {nbs : List (List Nat)} {st : List JCInput} {s s' : JCState}
    {I : JCInput} (hl : st.getLast? = some I) (h : jcStep P nbs.length (encode nbs) st s = .ok s') :
    ∀ p t ns, nbs[p]? = some ns → t < ns.length →
      s'.parN (bondPos nbs p t) = min 1 (s.parN (bondPos nbs p t) + jcIncrement P I (bondPos nbs p t)) ∧
      s'.bondNP1 (bondPos nbs p t) = if P.threshold < s'.parN (bondPos nbs p t) then
          (s'.parN (bondPos nbs p t) - P.threshold) / (1 - P.threshold) else 0 := by
  induction st generalizing s with
  | nil => simp at hl
  | cons J st ih =>
    rw [jcStep] at h
    split at h
    · next s1 h1 =>
      obtain ⟨e1, e2⟩ := johnsonCook_spec h1
      cases st with
      | nil =>
        rw [List.getLast?_singleton] at hl
        cases hl
        cases h
        exact e2
      | cons K st =>
        rw [List.getLast?_cons_cons] at hl
        have := ih hl h
        rwa [e1] at this
    · cases h
    · cases h

end Verif.Damage
