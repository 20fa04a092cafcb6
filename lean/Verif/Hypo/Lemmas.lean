import Verif.Hypo.Spec
import Verif.Assoc.MotionProps

/-!
# Hypoelastic correspondence material: lemmas
-/

noncomputable section

namespace Verif.Hypo

open Verif Verif.Neigh Verif.Mech Verif.Tensor Matrix
open Verif.Assoc (Body Decompose Weights storeAll influenceOf evaluate gradientAt bondGradient lenSq integralBond
  forceBond Current storeAll_get storeAll_other)
open Verif.Correspondence (bondsAt identity newStretch newRotation unrotated rotateStress mem_bondsAt)
open scoped Classical

/-! ### Weights -/

/-- The loop over points, with the influence of all bonds given. -/
theorem weights_fold {C : Body} {D : Decompose} {order : Nat} {H : Harm} {bonds : List Bond}
    (hn : (bonds.map (·.b)).Nodup) (ps : List Nat) {s s' : Weights}
    (ho : ∀ b ∈ bonds, s.omega b.b = influenceOf C H.bondDamage b)
    (h : ps.foldlM (weightsPoint C D order H bonds) s = .ok s') :
    s'.code = s.code ∧ (∀ b ∈ bonds, s'.omega b.b = influenceOf C H.bondDamage b) ∧
    (∀ p, p ∈ ps → H.flag p < 1 / 2 → C.horizon p ≠ 0) ∧ ∀ p, H.flag p < 1 / 2 →
      (p ∈ ps ∨ Current C D order H.bondDamage bonds s p) → Current C D order H.bondDamage bonds s' p := by
  induction ps generalizing s with
  | nil =>
    cases h
    refine ⟨rfl, ho, fun p hp => by simp at hp, fun p _ hp => ?_⟩
    rcases hp with hp | hp
    · simp at hp
    · exact hp
  | cons q ps ih =>
    rw [List.foldlM_cons] at h
    obtain ⟨s1, h1, h2⟩ := Outcome.bind_eq_ok.mp h
    unfold weightsPoint at h1
    by_cases hf : H.flag q < 1 / 2
    · rw [if_pos hf] at h1
      by_cases hh : C.horizon q = 0
      · rw [if_pos hh] at h1; cases h1
      rw [if_neg hh] at h1
      cases h1
      have hq := Verif.Assoc.evaluate_current C D order H.bondDamage hn s q
      have hother := fun p (hpq : p ≠ q) => (Verif.Assoc.evaluate_other C D order H.bondDamage hn s hpq).2
      obtain ⟨a1, a2, a3, a4⟩ := ih (s := { evaluate C D order H.bondDamage (bondsAt bonds q) s q with flag := s.flag })
        (fun b hb => by
          show (evaluate C D order H.bondDamage (bondsAt bonds q) s q).omega b.b = _
          by_cases hi : b.i = q
          · exact (hq b (List.mem_filter.mpr ⟨hb, by simpa using hi⟩)).1
          · rw [(hother b.i hi b (List.mem_filter.mpr ⟨hb, by simp⟩)).1]
            exact ho b hb) h2
      refine ⟨by rw [a1]; exact (Verif.Assoc.evaluate_code C D order H.bondDamage (bondsAt bonds q) s q), a2, fun p hp hfp => ?_, fun p hfp hp => ?_⟩
      · rcases List.mem_cons.mp hp with rfl | hp
        · exact hh
        · exact a3 p hp hfp
      · refine a4 p hfp ?_
        by_cases hpq : p = q
        · subst hpq
          exact Or.inr hq
        · rcases hp with hp | hp
          · exact Or.inl ((List.mem_cons.mp hp).resolve_left hpq)
          · right
            intro b hb
            show (evaluate C D order H.bondDamage (bondsAt bonds q) s q).omega b.b = _ ∧
              (evaluate C D order H.bondDamage (bondsAt bonds q) s q).phi b.b = _
            rw [(hother p hpq b hb).1, (hother p hpq b hb).2]
            exact hp b hb
    · rw [if_neg hf] at h1
      cases h1
      obtain ⟨a1, a2, a3, a4⟩ := ih ho h2
      refine ⟨a1, a2, fun p hp hfp => ?_, fun p hfp hp => a4 p hfp ?_⟩
      · rcases List.mem_cons.mp hp with rfl | hp
        · exact absurd hfp hf
        · exact a3 p hp hfp
      · rcases hp with hp | hp
        · rcases List.mem_cons.mp hp with rfl | hp
          · exact absurd hfp hf
          · exact Or.inl hp
        · exact Or.inr hp

/-- What is known of the results of `precompute`. -/
structure PreParts (C : Body) (D : Decompose) (order : Nat) (dt : ℝ) (H : Harm) (J : Nat → ℝ) (v : Nat → V3) (n : Nat)
    (bonds : List Bond) (g : Ghosts) (P : Pre) : Prop where
  positive : order ≠ 0
  omega : ∀ b ∈ bonds, P.weights.omega b.b = influenceOf C H.bondDamage b
  horizon : ∀ p < n, H.flag p < 1 / 2 → C.horizon p ≠ 0
  current : ∀ p < n, H.flag p < 1 / 2 → Current C D order H.bondDamage bonds P.weights p
  grad : ∀ p, P.grad p = if p < n then (if H.flag p < 1 / 2 then gradientAt C P.weights.phi zero v (bondsAt bonds p)
    else zero) else g.grad p
  jacobian : ∀ p, P.jacobian p = if p < n then (if H.flag p < 1 / 2 then
    J p * (1 + velGradTr (gradientAt C P.weights.phi zero v (bondsAt bonds p)) * dt) else 0) else g.jacobian p
  w : ∀ p, P.w p = if p < n then damagedVolume C H.bondDamage (bondsAt bonds p) else g.w p
  w0 : ∀ p, P.w0 p = if p < n then undamagedVolume C (bondsAt bonds p) else g.w0 p

theorem precompute_parts {C : Body} {D : Decompose} {order : Nat} {dt : ℝ} {H : Harm} {J : Nat → ℝ} {v : Nat → V3} {n : Nat}
    {bonds : List Bond} {g : Ghosts} {P : Pre} (hn : (bonds.map (·.b)).Nodup)
    (h : precompute C D order dt H J v n bonds g = .ok P) : PreParts C D order dt H J v n bonds g P := by
  unfold precompute at h
  obtain ⟨w, h1, h2⟩ := Outcome.bind_eq_ok.mp h
  split at h2
  · cases h2
  cases h2
  unfold gradientWeights at h1
  split at h1
  · cases h1
  next ho =>
  obtain ⟨-, a2, a3, a4⟩ := weights_fold hn _ (fun b hb => storeAll_get _ _ _ hn hb) h1
  exact ⟨ho, a2, fun p hp hf => a3 p (List.mem_range.mpr hp) hf, fun p hp hf => a4 p hf (Or.inl (List.mem_range.mpr hp)),
    fun _ => rfl, fun _ => rfl, fun _ => rfl, fun _ => rfl⟩

theorem precompute_defined {C : Body} {D : Decompose} {order : Nat} (ho : order ≠ 0) (dt : ℝ) {H : Harm} (J : Nat → ℝ)
    (v : Nat → V3) {n : Nat} (bonds : List Bond) (g : Ghosts) (hh : ∀ p < n, C.horizon p ≠ 0) :
    ∃ P, precompute C D order dt H J v n bonds g = .ok P := by
  have key : ∀ (ps : List Nat), (∀ p ∈ ps, C.horizon p ≠ 0) → ∀ s : Weights, ∃ s',
      ps.foldlM (weightsPoint C D order H bonds) s = .ok s' ∧ s'.code = s.code := by
    intro ps
    induction ps with
    | nil => intro _ s; exact ⟨s, rfl, rfl⟩
    | cons q ps ih =>
      intro hps s
      have : ∃ s1, weightsPoint C D order H bonds s q = .ok s1 ∧ s1.code = s.code := by
        unfold weightsPoint
        split
        · rw [if_neg (hps q List.mem_cons_self)]
          exact ⟨_, rfl, Verif.Assoc.evaluate_code C D order H.bondDamage (bondsAt bonds q) s q⟩
        · exact ⟨s, rfl, rfl⟩
      obtain ⟨s1, h1, h2⟩ := this
      obtain ⟨s', h3, h4⟩ := ih (fun p hp => hps p (List.mem_cons_of_mem _ hp)) s1
      exact ⟨s', by rw [List.foldlM_cons, h1]; exact h3, h4.trans h2⟩
  obtain ⟨w, h1, h2⟩ := key (List.range n) (fun p hp => hh p (List.mem_range.mp hp))
    ⟨0, fun _ => 0, storeAll (influenceOf C H.bondDamage) bonds fun _ => 0, fun _ => 0⟩
  unfold precompute gradientWeights
  rw [if_neg ho, h1, Outcome.ok_bind, if_neg (by rw [h2]; simp)]
  exact ⟨_, rfl⟩

/-! ### Stresses -/

theorem advance_parts {α β : Type} {law : Law α β} {dt : ℝ} {L : M9} {s s' : Site α} {o o' : β}
    (h : advance law dt L s o = .ok (s', o')) :
    s'.stretch = newStretch dt L s.stretch ∧ s'.rotation = newRotation dt L s.stretch s.rotation ∧
    law dt (unrotated L s'.rotation) s.stress s.internal o = .ok (s'.stress, s'.internal, o') := by
  unfold advance at h
  obtain ⟨r, h1, h2⟩ := Outcome.bind_eq_ok.mp h
  cases h2
  exact ⟨rfl, rfl, h1⟩

theorem advanceAll_fold {α β : Type} {law : Law α β} {dt : ℝ} {old : Nat → Site α} {ks : List (Nat × M9)}
    {s s' : (Nat → Site α) × (Nat → β)} (hn : (ks.map (·.1)).Nodup) (h : advanceAll law dt old ks s = .ok s') :
    (∀ k ∈ ks, advance law dt k.2 (old k.1) (s.2 k.1) = .ok (s'.1 k.1, s'.2 k.1)) ∧
    ∀ k, k ∉ ks.map (·.1) → s'.1 k = s.1 k ∧ s'.2 k = s.2 k := by
  unfold advanceAll at h
  induction ks generalizing s with
  | nil => cases h; exact ⟨fun k hk => by simp at hk, fun k _ => ⟨rfl, rfl⟩⟩
  | cons q ks ih =>
    rw [List.foldlM_cons] at h
    obtain ⟨s1, h1, h2⟩ := Outcome.bind_eq_ok.mp h
    obtain ⟨r, h3, h4⟩ := Outcome.bind_eq_ok.mp h1
    cases h4
    rw [List.map_cons, List.nodup_cons] at hn
    obtain ⟨a1, a2⟩ := ih hn.2 h2
    constructor
    · intro k hk
      rcases List.mem_cons.mp hk with rfl | hk
      · obtain ⟨e1, e2⟩ := a2 k.1 hn.1
        rw [h3, e1, e2]
        simp only [Function.update_self]
      · have hne : k.1 ≠ q.1 := fun e => hn.1 (e ▸ List.mem_map_of_mem hk)
        have := a1 k hk
        simpa only [Function.update_of_ne hne] using this
    · intro k hk
      rw [List.map_cons, List.mem_cons, not_or] at hk
      obtain ⟨e1, e2⟩ := a2 k hk.2
      rw [e1, e2]
      exact ⟨Function.update_of_ne hk.1 _ _, Function.update_of_ne hk.1 _ _⟩

theorem advanceAll_defined {α β : Type} {law : Law α β} (hl : ∀ dt D s a o, ∃ r, law dt D s a o = .ok r) (dt : ℝ)
    (old : Nat → Site α) (ks : List (Nat × M9)) (s : (Nat → Site α) × (Nat → β)) : ∃ s', advanceAll law dt old ks s = .ok s' := by
  unfold advanceAll
  induction ks generalizing s with
  | nil => exact ⟨s, rfl⟩
  | cons q ks ih =>
    have : ∃ r, advance law dt q.2 (old q.1) (s.2 q.1) = .ok r := by
      unfold advance
      obtain ⟨r, hr⟩ := hl dt (unrotated q.2 (newRotation dt q.2 (old q.1).stretch (old q.1).rotation)) (old q.1).stress
        (old q.1).internal (s.2 q.1)
      exact ⟨_, by simp only [hr, Outcome.ok_bind]; rfl⟩
    obtain ⟨r, hr⟩ := this
    rw [List.foldlM_cons, hr, Outcome.ok_bind, Outcome.ok_bind]
    exact ih _

/-! ### Parts of an evaluation -/

theorem liveBonds_nodup {H : Harm} {bonds : List Bond} (hn : (bonds.map (·.b)).Nodup) :
    ((liveBonds H bonds).map (·.b)).Nodup := hn.sublist (List.filter_sublist.map _)

theorem mem_live {H : Harm} {bonds : List Bond} {b : Bond} : b ∈ liveBonds H bonds ↔ b ∈ bonds ∧ H.flag b.i < 0 := by
  simp [liveBonds]

theorem mem_livePoints {H : Harm} {n p : Nat} : p ∈ livePoints H n ↔ p < n ∧ H.flag p < 0 := by
  simp [livePoints]

/-- What is known of the results of `computeForce`. -/
structure Parts {α β : Type} (C : Body) (M : Material α β) (dt : ℝ) (H : Harm) (J : Nat → ℝ) (v : Nat → V3) (s : State α β)
    (n : Nat) (bonds : List Bond) (r : Result α β) : Prop where
  length : ∀ b ∈ bonds, H.flag b.i < 0 → lenSq (Verif.Assoc.xi C b) ≠ 0
  bondGrad : ∀ b ∈ bonds, H.flag b.i < 0 → r.bondGrad b.b = bondGradient C r.pre.grad v b
  node : ∀ p < n, H.flag p < 0 → advance M.node dt (r.pre.grad p) (s.now.nodes p) (s.nodeExtra p) =
    .ok (r.arrays.nodes p, r.nodeExtra p)
  nodeIdle : ∀ p, ¬ (p < n ∧ H.flag p < 0) → r.arrays.nodes p = s.found.nodes p ∧ r.nodeExtra p = s.nodeExtra p
  bond : ∀ b ∈ bonds, H.flag b.i < 0 → advance M.bond dt (r.bondGrad b.b) (s.now.bonds b.b) (s.bondExtra b.b) =
    .ok (r.arrays.bonds b.b, r.bondExtra b.b)
  bondIdle : ∀ k, k ∉ (liveBonds H bonds).map (·.b) → r.arrays.bonds k = s.found.bonds k ∧ r.bondExtra k = s.bondExtra k
  grad : ∀ p, r.arrays.grad p = if p < n ∧ H.flag p < 0 then newGradient dt (r.pre.grad p) (s.now.grad p) else s.found.grad p
  strain : ∀ p, r.strain p = greenLagrange (r.arrays.grad p)
  cauchy : ∀ p, r.cauchy p = rotateStress (r.arrays.nodes p).rotation (r.arrays.nodes p).stress
  bondCauchy : ∀ k, r.bondCauchy k = rotateStress (r.arrays.bonds k).rotation (r.arrays.bonds k).stress
  integral : integral C r.pre.w0 r.pre.weights.omega r.bondCauchy (livePoints H n) bonds = .ok r.integral
  force : scatter (fun b => J b.j * C.volume b.i) (fun b => J b.i * C.volume b.j)
      (forceBond C r.pre.w0 r.pre.weights r.bondCauchy r.integral) (liveBonds H bonds) 0 = .ok r.force

theorem force_parts {α β : Type} {C : Body} {M : Material α β} {dt : ℝ} {H : Harm} {J : Nat → ℝ} {v : Nat → V3} {s : State α β}
    {P : Pre} {n : Nat} {bonds : List Bond} {r : Result α β} (hn : (bonds.map (·.b)).Nodup)
    (h : computeForce C M dt H J v s P n bonds = .ok r) : r.pre = P ∧ Parts C M dt H J v s n bonds r := by
  unfold computeForce at h
  split at h
  · cases h
  next hlen =>
  obtain ⟨nodes, h1, h2⟩ := Outcome.bind_eq_ok.mp h
  obtain ⟨bs, h3, h4⟩ := Outcome.bind_eq_ok.mp h2
  obtain ⟨S, h5, h6⟩ := Outcome.bind_eq_ok.mp h4
  obtain ⟨f, h7, h8⟩ := Outcome.bind_eq_ok.mp h6
  cases h8
  have hnodes := advanceAll_fold (by
    rw [List.map_map]
    have : ((fun x : Nat × M9 => x.1) ∘ fun p => (p, P.grad p)) = id := rfl
    rw [this, List.map_id]
    exact List.nodup_range.filter _) h1
  have hbonds := advanceAll_fold (by
    rw [List.map_map]
    exact liveBonds_nodup hn) h3
  have hg : ∀ b ∈ bonds, H.flag b.i < 0 → storeAll (bondGradient C P.grad v) (liveBonds H bonds) (fun _ => zero) b.b =
      bondGradient C P.grad v b := fun b hb hf => storeAll_get _ _ _ (liveBonds_nodup hn) (mem_live.mpr ⟨hb, hf⟩)
  refine ⟨rfl, ?_, hg, ?_, ?_, ?_, ?_, fun _ => rfl, fun _ => rfl, fun _ => rfl, fun _ => rfl, h5, h7⟩
  · intro b hb hf h0
    apply hlen
    rw [List.any_eq_true]
    exact ⟨b, mem_live.mpr ⟨hb, hf⟩, by simpa using h0⟩
  · intro p hp hf
    exact hnodes.1 (p, P.grad p) (List.mem_map.mpr ⟨p, mem_livePoints.mpr ⟨hp, hf⟩, rfl⟩)
  · intro p hp
    refine hnodes.2 p fun hm => hp ?_
    rw [List.map_map] at hm
    obtain ⟨q, hq, e⟩ := List.mem_map.mp hm
    have e' : q = p := e
    exact e' ▸ mem_livePoints.mp hq
  · intro b hb hf
    exact hbonds.1 (b.b, storeAll (bondGradient C P.grad v) (liveBonds H bonds) (fun _ => zero) b.b)
      (List.mem_map.mpr ⟨b, mem_live.mpr ⟨hb, hf⟩, rfl⟩)
  · intro k hk
    refine hbonds.2 k fun hm => hk ?_
    rw [List.map_map] at hm
    exact hm

theorem evaluation_parts {α β : Type} {B : Block} {D : Decompose} {order : Nat} {M : Material α β} {dt : ℝ} {H : Harm}
    {y v : Nat → V3} {g : Ghosts} {s : State α β} {nbs : List (List Nat)} {r : Result α β}
    (h : evaluation B D order M dt H y v g s nbs.length (encode nbs) = .ok r) :
    PreParts (current B s.jacobian y) D order dt H s.jacobian v nbs.length (bondsOf nbs) g r.pre ∧
    Parts (current B s.jacobian y) M dt H s.jacobian v s nbs.length (bondsOf nbs) r := by
  unfold evaluation at h
  rw [visited_encode, Outcome.ok_bind] at h
  obtain ⟨P, h1, h2⟩ := Outcome.bind_eq_ok.mp h
  obtain ⟨e, hp⟩ := force_parts (bondsOf_nodup nbs) h2
  exact ⟨e ▸ precompute_parts (bondsOf_nodup nbs) h1, hp⟩

end Verif.Hypo
