import Verif.LineSearch.Lemmas
import Mathlib.Tactic.Linarith
import Mathlib.Tactic.NormNum

/-!
# Line search: properties (C44)
-/

namespace Verif.LineSearch

open Verif Verif.BC

/-- What the search returns, in terms of the two loops. -/
theorem searchFrom_cases {T : Type} {K : Kind T} {w : T} {r0 : Nat → ℝ} {u : ℝ} {x : T × ℝ}
    (h : searchFrom K w r0 u = .ok x) :
    ∃ w1 p s1, K.move w epsilon = .ok w1 ∧ K.eval w1 = .ok p ∧
      (guess K.length K.lhs r0 p ++ firstCandidates).foldlM (tryFirst K w)
        { vecs := K.restore w w1, bestAlpha := 1, bestResidual := 10 ^ 50, increases := [] } = .ok s1 ∧
      ((0.02 < (u - s1.bestResidual) / u ∧ x = (s1.vecs, s1.bestAlpha)) ∨
        (¬ 0.02 < (u - s1.bestResidual) / u ∧
          ∃ s2, bruteForce.foldlM (trySecond K w u) s1 = .ok s2 ∧ x = conclude u s2)) := by
  unfold searchFrom at h
  obtain ⟨w1, h1, h⟩ := Outcome.bind_eq_ok.mp h
  obtain ⟨p, h2, h⟩ := Outcome.bind_eq_ok.mp h
  obtain ⟨s1, h3, h⟩ := Outcome.bind_eq_ok.mp h
  refine ⟨w1, p, s1, h1, h2, h3, ?_⟩
  split at h
  · rename_i hc
    exact .inl ⟨hc, (ok_inj h).symm⟩
  · rename_i hc
    obtain ⟨s2, h4, h⟩ := Outcome.bind_eq_ok.mp h
    exact .inr ⟨hc, s2, h4, (ok_inj h).symm⟩

theorem inv_start {T : Type} (at_ : ℝ → ℝ → Prop) (w : T) :
    Inv at_ [] ({ vecs := w, bestAlpha := 1, bestResidual := 10 ^ 50, increases := [] } : Search T) :=
  ⟨by simp, .inl ⟨rfl, rfl⟩, le_refl _⟩

theorem one_mem_first : (1 : ℝ) ∈ firstCandidates := by
  unfold firstCandidates
  norm_num

/-- What the search does, in terms of the lists of the model. -/
theorem best_of_lists (E : MechEnv) (w w' : Mech) (alpha : ℝ) (hdt : E.dt ≠ 0)
    (h : lineSearch (mechKind E) w = .ok (w', alpha)) :
    w'.deltaU = w.deltaU ∧ ∃ r0 rho0, E.eval w = .ok (some (r0, rho0)) ∧
      (rho0 = 0 → alpha = 0) ∧
      (0 < rho0 → rho0 ≤ 10 ^ 50 → ∃ first : List ℝ, (∃ p, first = guess E.length E.lhs r0 p ++ firstCandidates) ∧ alpha ∈ first ++ bruteForce ∧
        ((∃ b ∈ first, ∃ rho, NormAt E w b rho ∧ rho < 0.98 * rho0) →
          BestOf (NormAt E w) first alpha) ∧
        ((∀ b ∈ first, ∀ rho, NormAt E w b rho → 0.98 * rho0 ≤ rho) →
          (∃ b ∈ first ++ bruteForce, ∃ rho, NormAt E w b rho ∧ rho < 0.9999 * rho0) →
          BestOf (NormAt E w) (first ++ bruteForce) alpha)) := by
  unfold lineSearch at h
  obtain ⟨r, he, h⟩ := Outcome.bind_eq_ok.mp h
  cases r with
  | none => exact absurd h (by simp)
  | some p =>
    obtain ⟨r0, rho0⟩ := p
    simp only at h
    by_cases hz : rho0 = 0
    · rw [if_pos hz] at h
      have e := ok_inj h
      simp only [Prod.mk.injEq] at e
      refine ⟨by rw [e.1], r0, rho0, he, fun _ => e.2.symm, fun hp => ?_⟩
      rw [hz] at hp; exact absurd hp (lt_irrefl _)
    · rw [if_neg hz] at h
      obtain ⟨w1, p, s1, h1, h2, h3, h4⟩ := searchFrom_cases h
      obtain ⟨hr1, hi1⟩ := first_loop (good_mech E) [] _ _ _ ⟨w, epsilon, w1, h1, rfl⟩ (inv_start _ _) h3
      rw [List.nil_append] at hi1
      have hi1' : Inv (NormAt E w) (guess E.length E.lhs r0 p ++ firstCandidates) s1 := by
        have : FirstAt (mechKind E) w = NormAt E w := by
          funext a rho; exact propext (mech_first_at hdt w a rho)
        rw [← this]; exact hi1
      have hres : ∀ v : Mech, Restored (mechKind E) w v → v.deltaU = w.deltaU := by
        rintro v ⟨_, _, _, _, rfl⟩; rfl
      have hone : (1 : ℝ) ∈ guess E.length E.lhs r0 p ++ firstCandidates :=
        List.mem_append_right _ one_mem_first
      rcases h4 with ⟨hc, e⟩ | ⟨hc, s2, h5, e⟩
      · simp only [Prod.mk.injEq] at e
        refine ⟨by rw [e.1]; exact hres _ hr1, r0, rho0, he, fun h => absurd h hz, fun hp hb => ?_⟩
        rw [lt_div_iff₀ hp] at hc
        have hlt : s1.bestResidual < 10 ^ 50 := by linarith
        obtain ⟨hm, hn⟩ : s1.bestAlpha ∈ guess E.length E.lhs r0 p ++ firstCandidates ∧
            NormAt E w s1.bestAlpha s1.bestResidual := by
          rcases hi1'.best with hx | hx
          · rw [hx.1] at hlt; exact absurd hlt (lt_irrefl _)
          · exact hx
        refine ⟨guess E.length E.lhs r0 p ++ firstCandidates, ⟨p, rfl⟩, ?_, ?_, ?_⟩
        · rw [e.2]; exact List.mem_append_left _ hm
        · intro _
          rw [e.2]
          exact ⟨hm, _, hn, hi1'.le⟩
        · intro hall
          have := hall _ hm _ hn
          linarith
      · have hsec := second_loop (u := rho0) (good_mech E) (NormAt E w) _ bruteForce s1 s2
          (fun a _ rho => (mech_at hdt w a rho).symm) hr1 hi1' h5
        obtain ⟨hr2, hi2⟩ := hsec
        have hd : w' = s2.vecs := by
          have := congrArg Prod.fst e
          simp only [conclude] at this
          split at this <;> exact this
        refine ⟨by rw [hd]; exact hres _ hr2, r0, rho0, he, fun h => absurd h hz, fun hp hb => ?_⟩
        rw [lt_div_iff₀ hp, not_lt] at hc
        refine ⟨guess E.length E.lhs r0 p ++ firstCandidates, ⟨p, rfl⟩, ?_, ?_, ?_⟩
        · have hbest : s2.bestAlpha ∈
              (guess E.length E.lhs r0 p ++ firstCandidates) ++ bruteForce := by
            rcases hi2.best with hx | hx
            · rw [hx.2]; exact List.mem_append_left _ hone
            · exact hx.1
          have ha := congrArg Prod.snd e
          simp only [conclude] at ha
          split at ha
          · rw [ha]; exact hbest
          · rw [ha]
            unfold closest
            rcases closest_mem s2.increases (s2.bestAlpha, 10 ^ 50) with hx | ⟨q, hq, hx⟩
            · simp only at hx ⊢
              rw [hx]; exact hbest
            · simp only at hx ⊢
              rw [hx]
              have hnil : s1.increases = [] := by
                have : ∀ (m : List ℝ) (s s' : Search Mech),
                    m.foldlM (tryFirst (mechKind E) w) s = .ok s' → s'.increases = s.increases := by
                  intro m
                  induction m with
                  | nil => intro s s' h; rw [← ok_inj h]
                  | cons a m ih =>
                    intro s s' h
                    obtain ⟨s3, q1, q2⟩ := foldlM_cons_ok.mp h
                    unfold tryFirst at q1
                    obtain ⟨w5, _, q1⟩ := Outcome.bind_eq_ok.mp q1
                    obtain ⟨r5, _, q1⟩ := Outcome.bind_eq_ok.mp q1
                    rw [ih s3 s' q2, ← ok_inj q1]
                    rcases keepBest_cases { s with vecs := (mechKind E).restore w w5 } a r5 with
                      ⟨z, _⟩ | ⟨_, _, _, _, z⟩ <;> rw [z]
                exact this _ _ _ h3
              rcases second_increases _ _ _ h5 q hq with hy | hy
              · rw [hnil] at hy; exact absurd hy (by simp)
              · exact List.mem_append_right _ hy
        · rintro ⟨b, hb1, rho, hb2, hb3⟩
          have := hi1'.le b hb1 rho hb2
          linarith
        · rintro _ ⟨b, hb1, rho, hb2, hb3⟩
          have hle := hi2.le b hb1 rho hb2
          have hlt : s2.bestResidual < 10 ^ 50 := by linarith
          obtain ⟨hm, hn⟩ : s2.bestAlpha ∈
              (guess E.length E.lhs r0 p ++ firstCandidates) ++ bruteForce ∧
              NormAt E w s2.bestAlpha s2.bestResidual := by
            rcases hi2.best with hx | hx
            · rw [hx.1] at hlt; exact absurd hlt (lt_irrefl _)
            · exact hx
          have hcc : 0.0001 < (rho0 - s2.bestResidual) / rho0 := by
            rw [lt_div_iff₀ hp]; linarith
          have ha := congrArg Prod.snd e
          simp only [conclude] at ha
          rw [if_pos hcc] at ha
          rw [ha]
          exact ⟨hm, _, hn, hi2.le⟩

theorem first_eq : firstCandidates = firstSteps := by
  unfold firstCandidates firstSteps
  norm_num

theorem second_iff (a : ℝ) : a ∈ bruteForce ↔ SecondStep a := by
  unfold bruteForce SecondStep
  simp only [List.mem_append, List.mem_map, List.mem_range, List.mem_cons, List.not_mem_nil, or_false,
    or_assoc]
  refine or_congr ?_ (or_congr ?_ (or_congr ?_ ?_))
  · constructor
    · rintro ⟨i, hi, rfl⟩
      exact ⟨i + 1, by omega, by omega, by push_cast; norm_num; ring⟩
    · rintro ⟨i, h1, h2, rfl⟩
      obtain ⟨k, rfl⟩ := Nat.exists_eq_add_of_le' h1
      exact ⟨k, by omega, by push_cast; norm_num; ring⟩
  · constructor
    · rintro ⟨i, hi, rfl⟩
      exact ⟨i + 6, by omega, by omega, by push_cast; norm_num; ring⟩
    · rintro ⟨i, h1, h2, rfl⟩
      obtain ⟨k, rfl⟩ := Nat.exists_eq_add_of_le' h1
      exact ⟨k, by omega, by push_cast; norm_num; ring⟩
  · constructor
    · rintro ⟨i, hi, rfl⟩
      exact ⟨i + 5, by omega, by omega, by push_cast; norm_num; ring⟩
    · rintro ⟨i, h1, h2, rfl⟩
      obtain ⟨k, rfl⟩ := Nat.exists_eq_add_of_le' h1
      exact ⟨k, by omega, by push_cast; norm_num; ring⟩
  · norm_num

theorem guess_range {n : Nat} {lhs r : Nat → ℝ} {p : Evaluation} {a : ℝ} (h : a ∈ guess n lhs r p) :
    -1 / 10 < a ∧ a < 10 := by
  cases p with
  | none => simp [guess] at h
  | some p =>
    simp only [guess] at h
    split at h
    · simp at h
    · split at h
      · rename_i hc
        rw [List.mem_singleton] at h
        rw [← h] at hc
        norm_num at hc ⊢
        exact hc
      · simp at h

/-- **C44**, mechanical analyses.  The search ends with the increment it started from.  If the residual
was zero the step length is zero.  Otherwise the step length is one of the candidates, which comprise
0.1, 0.2, 0.3, 0.5, 0.75 and 1; if one of these first candidates reduces the residual by more than two
percent, the step length is the best of them, and if not, but one of all candidates reduces it by
more than a hundredth of a percent, the best of all.  Each candidate is judged by the residual at
its own configuration. -/
theorem C44_best (E : MechEnv) (w w' : Mech) (alpha : ℝ) (hdt : E.dt ≠ 0)
    (h : lineSearch (mechKind E) w = .ok (w', alpha)) :
    w'.deltaU = w.deltaU ∧ ∃ r0 rho0, E.eval w = .ok (some (r0, rho0)) ∧
      (rho0 = 0 → alpha = 0) ∧
      (0 < rho0 → rho0 ≤ 10 ^ 50 → ∃ first second : List ℝ,
        (∀ a ∈ firstSteps, a ∈ first) ∧ (∀ a ∈ first, a ∈ firstSteps ∨ (-1 / 10 < a ∧ a < 10)) ∧
        (∀ a, a ∈ second ↔ SecondStep a) ∧ alpha ∈ first ++ second ∧
        ((∃ b ∈ first, ∃ rho, NormAt E w b rho ∧ rho < 0.98 * rho0) →
          BestOf (NormAt E w) first alpha) ∧
        ((∀ b ∈ first, ∀ rho, NormAt E w b rho → 0.98 * rho0 ≤ rho) →
          (∃ b ∈ first ++ second, ∃ rho, NormAt E w b rho ∧ rho < 0.9999 * rho0) →
          BestOf (NormAt E w) (first ++ second) alpha)) := by
  obtain ⟨h1, r0, rho0, h2, h3, h4⟩ := best_of_lists E w w' alpha hdt h
  refine ⟨h1, r0, rho0, h2, h3, fun hp hb => ?_⟩
  obtain ⟨first, ⟨p, rfl⟩, h6, h7, h8⟩ := h4 hp hb
  refine ⟨_, bruteForce, ?_, ?_, second_iff, h6, h7, h8⟩
  · intro a ha
    exact List.mem_append_right _ (first_eq ▸ ha)
  · intro a ha
    rcases List.mem_append.mp ha with ha | ha
    · exact .inr (guess_range ha)
    · exact .inl (first_eq ▸ ha)

/-- The search ends with a result whenever the residual can be evaluated everywhere and is finite at
the start, for steps of non-zero length. -/
theorem C44_defined (E : MechEnv) (w : Mech) (hdt : E.dt ≠ 0) (hev : ∀ w, ∃ r, E.eval w = .ok r)
    (r0 : Nat → ℝ) (rho0 : ℝ) (h0 : E.eval w = .ok (some (r0, rho0))) :
    ∃ x, lineSearch (mechKind E) w = .ok x := by
  have first : ∀ (m : List ℝ) (s : Search Mech), ∃ s', m.foldlM (tryFirst (mechKind E) w) s = .ok s' := by
    intro m
    induction m with
    | nil => exact fun s => ⟨s, rfl⟩
    | cons a m ih =>
      intro s
      obtain ⟨r, hr⟩ := hev (trialOf E s.vecs a)
      obtain ⟨s', hs'⟩ := ih (keepBest { s with vecs := (mechKind E).restore w (trialOf E s.vecs a) } a r)
      refine ⟨s', foldlM_cons_ok.mpr ⟨_, ?_, hs'⟩⟩
      unfold tryFirst
      have : (mechKind E).moveFirst s.vecs a = .ok (trialOf E s.vecs a) := moveMech_ok hdt _ _
      rw [this]
      simp only [Outcome.ok_bind]
      have : (mechKind E).eval (trialOf E s.vecs a) = .ok r := hr
      rw [this]
      rfl
  have second : ∀ (m : List ℝ) (s : Search Mech),
      ∃ s', m.foldlM (trySecond (mechKind E) w rho0) s = .ok s' := by
    intro m
    induction m with
    | nil => exact fun s => ⟨s, rfl⟩
    | cons a m ih =>
      intro s
      obtain ⟨r, hr⟩ := hev (trialOf E s.vecs a)
      obtain ⟨s', hs'⟩ := ih
        (keepBestOrIncrease rho0 { s with vecs := (mechKind E).restore w (trialOf E s.vecs a) } a r)
      refine ⟨s', foldlM_cons_ok.mpr ⟨_, ?_, hs'⟩⟩
      unfold trySecond
      have : (mechKind E).move s.vecs a = .ok (trialOf E s.vecs a) := moveMech_ok hdt _ _
      rw [this]
      simp only [Outcome.ok_bind]
      have : (mechKind E).eval (trialOf E s.vecs a) = .ok r := hr
      rw [this]
      rfl
  unfold lineSearch
  have h0' : (mechKind E).eval w = .ok (some (r0, rho0)) := h0
  rw [h0']
  simp only [Outcome.ok_bind]
  split
  · exact ⟨_, rfl⟩
  · unfold searchFrom
    have : (mechKind E).move w epsilon = .ok (trialOf E w epsilon) := moveMech_ok hdt _ _
    rw [this]
    simp only [Outcome.ok_bind]
    obtain ⟨r, hr⟩ := hev (trialOf E w epsilon)
    have : (mechKind E).eval (trialOf E w epsilon) = .ok r := hr
    rw [this]
    simp only [Outcome.ok_bind]
    obtain ⟨s1, hs1⟩ := first (guess (mechKind E).length (mechKind E).lhs r0 r ++ firstCandidates)
      { vecs := (mechKind E).restore w (trialOf E w epsilon), bestAlpha := 1, bestResidual := 10 ^ 50,
        increases := [] }
    rw [hs1]
    simp only [Outcome.ok_bind]
    split
    · exact ⟨_, rfl⟩
    · obtain ⟨s2, hs2⟩ := second bruteForce s1
      rw [hs2]
      exact ⟨_, rfl⟩

/-- One unknown, a residual that is half as large after a full step. -/
noncomputable def demoMech : MechEnv where
  x := fun _ => 0
  u := fun _ => 0
  lhs := fun _ => 1
  dt := 1
  length := 1
  eval := fun w => .ok (some (fun _ => 2 - w.deltaU 0, |2 - w.deltaU 0|))

/-- The hypotheses of the theorem are met by an instance where the step length 1 is the best of the
first six candidates. -/
example : ∃ w' alpha, lineSearch (mechKind demoMech) ⟨fun _ => 0, fun _ => 0, fun _ => 0⟩ = .ok (w', alpha) ∧
    demoMech.eval ⟨fun _ => 0, fun _ => 0, fun _ => 0⟩ = .ok (some (fun _ => 2 - 0, |2 - 0|)) ∧
    ∃ b ∈ firstCandidates, ∃ rho, NormAt demoMech ⟨fun _ => 0, fun _ => 0, fun _ => 0⟩ b rho ∧
      rho < 0.98 * |2 - 0| := by
  have h0 : demoMech.eval ⟨fun _ => 0, fun _ => 0, fun _ => 0⟩ = .ok (some (fun _ => 2 - 0, |2 - 0|)) := rfl
  obtain ⟨⟨w', alpha⟩, h⟩ := C44_defined demoMech ⟨fun _ => 0, fun _ => 0, fun _ => 0⟩
    (by norm_num [demoMech]) (fun w => ⟨_, rfl⟩) _ _ h0
  refine ⟨w', alpha, h, h0, 1, one_mem_first, |2 - (0 + 1 * 1)|, ⟨_, rfl⟩, ?_⟩
  norm_num [abs_of_pos]

/-! ## Multiphysics -/

/-- The increment of the unknowns is the same after the search, also in multiphysics analyses. -/
theorem C44_multiphysics_increment (E : MultiEnv) (w w' : Multi) (alpha : ℝ)
    (h : lineSearch (multiKind E) w = .ok (w', alpha)) : w'.all.deltaU = w.all.deltaU := by
  unfold lineSearch at h
  obtain ⟨r, he, h⟩ := Outcome.bind_eq_ok.mp h
  cases r with
  | none => exact absurd h (by simp)
  | some p =>
    simp only at h
    split at h
    · have e := ok_inj h
      simp only [Prod.mk.injEq] at e
      rw [e.1]
    · obtain ⟨w1, p, s1, h1, h2, h3, h4⟩ := searchFrom_cases h
      have first : ∀ (m : List ℝ) (s s' : Search Multi), s.vecs.all.deltaU = w.all.deltaU →
          m.foldlM (tryFirst (multiKind E) w) s = .ok s' → s'.vecs.all.deltaU = w.all.deltaU := by
        intro m
        induction m with
        | nil => intro s s' hs h; rw [← ok_inj h]; exact hs
        | cons a m ih =>
          intro s s' hs h
          obtain ⟨s3, q1, q2⟩ := foldlM_cons_ok.mp h
          unfold tryFirst at q1
          obtain ⟨w5, _, q1⟩ := Outcome.bind_eq_ok.mp q1
          obtain ⟨r5, _, q1⟩ := Outcome.bind_eq_ok.mp q1
          refine ih s3 s' ?_ q2
          rw [← ok_inj q1]
          rcases keepBest_cases { s with vecs := (multiKind E).restore w w5 } a r5 with
            ⟨z, _⟩ | ⟨_, _, _, _, z⟩ <;> rw [z] <;> rfl
      have second : ∀ (u : ℝ) (m : List ℝ) (s s' : Search Multi), s.vecs.all.deltaU = w.all.deltaU →
          m.foldlM (trySecond (multiKind E) w u) s = .ok s' → s'.vecs.all.deltaU = w.all.deltaU := by
        intro u m
        induction m with
        | nil => intro s s' hs h; rw [← ok_inj h]; exact hs
        | cons a m ih =>
          intro s s' hs h
          obtain ⟨s3, q1, q2⟩ := foldlM_cons_ok.mp h
          unfold trySecond at q1
          obtain ⟨w5, _, q1⟩ := Outcome.bind_eq_ok.mp q1
          obtain ⟨r5, _, q1⟩ := Outcome.bind_eq_ok.mp q1
          refine ih s3 s' ?_ q2
          rw [← ok_inj q1]
          rcases keepBestOrIncrease_cases u { s with vecs := (multiKind E).restore w w5 } a r5 with
            ⟨_, _, z, _⟩ | ⟨_, _, _, _, z⟩ <;> rw [z] <;> rfl
      have f1 := first _ _ _ rfl h3
      rcases h4 with ⟨hc, e⟩ | ⟨hc, s2, h5, e⟩
      · simp only [Prod.mk.injEq] at e
        rw [e.1]; exact f1
      · have hd : w' = s2.vecs := by
          have := congrArg Prod.fst e
          simp only [conclude] at this
          split at this <;> exact this
        rw [hd]; exact second _ _ _ _ f1 h5

/-- One node with displacements and a pressure; the residual is 1, one half for positive pressures
and zero for a pressure of one. -/
noncomputable def demoMulti : MultiEnv where
  x := fun _ => 0
  unknownsU := fun _ => 0
  lhs := fun k => if k = 3 then 1 else 0
  dt := 1
  length := 4
  extra := 1
  eval := fun w => open Classical in
    if w.fluid.y 0 = 1 then .ok (some (fun _ => 0, 0))
    else if 0 < w.fluid.y 0 then .ok (some (fun k => if k = 3 then 1 / 2 else 0, 1 / 2))
    else .ok (some (fun k => if k = 3 then 1 else 0, 1))

/-- The state at the beginning of the search. -/
noncomputable def rest : Multi := ⟨⟨fun _ => 0, fun _ => 0, fun _ => 0⟩, ⟨fun _ => 0, fun _ => 0, fun _ => 0⟩,
  ⟨fun _ => 0, fun _ => 0, fun _ => 0⟩⟩

/-- The norm of the residual at step length `alpha` in a multiphysics analysis. -/
def MultiNormAt (E : MultiEnv) (w : Multi) (alpha rho : ℝ) : Prop :=
  ∃ w' r, moveMulti E w alpha = .ok w' ∧ E.eval w' = .ok (some (r, rho))

/-- If the residual at `epsilon` is finite, all passes of the first loop see that residual. -/
theorem first_loop_blind {E : MultiEnv} {w : Multi} {rho : ℝ}
    (hev : ∀ s : Multi, s.all.deltaU = w.all.deltaU →
      ∃ s' r, moveMulti E s epsilon = .ok s' ∧ E.eval s' = .ok (some (r, rho))) :
    ∀ (m : List ℝ) (s : Search Multi), s.vecs.all.deltaU = w.all.deltaU → s.bestResidual = rho →
    ∃ s', m.foldlM (tryFirst (multiKind E) w) s = .ok s' ∧ s'.bestAlpha = s.bestAlpha ∧
      s'.bestResidual = rho := by
  intro m
  induction m with
  | nil => exact fun s _ hr => ⟨s, rfl, rfl, hr⟩
  | cons a m ih =>
    intro s hs hr
    obtain ⟨w1, r, h1, h2⟩ := hev s.vecs hs
    obtain ⟨s', q1, q2, q3⟩ := ih { s with vecs := (multiKind E).restore w w1 } rfl hr
    refine ⟨s', foldlM_cons_ok.mpr ⟨_, ?_, q1⟩, q2, q3⟩
    unfold tryFirst
    have : (multiKind E).moveFirst s.vecs a = .ok w1 := h1
    rw [this]
    simp only [Outcome.ok_bind]
    have : (multiKind E).eval w1 = .ok (some (r, rho)) := h2
    rw [this]
    simp only [Outcome.ok_bind, keepBest]
    rw [hr, if_neg (lt_irrefl _)]

/-- In a multiphysics analysis the first loop cannot tell the candidates apart: if the residual at
`epsilon` is two percent below the unperturbed one, the first candidate is returned, whatever the
residuals at the candidates are. -/
theorem C44_multiphysics_blind_partial (E : MultiEnv) (w : Multi) (r0 : Nat → ℝ) (rho0 rho : ℝ)
    (h0 : E.eval w = .ok (some (r0, rho0))) (hpos : 0 < rho0) (hb : rho < 10 ^ 50)
    (hlt : rho < 0.98 * rho0)
    (hev : ∀ s : Multi, s.all.deltaU = w.all.deltaU →
      ∃ s' r, moveMulti E s epsilon = .ok s' ∧ E.eval s' = .ok (some (r, rho))) :
    ∃ w' alpha w1 r, moveMulti E w epsilon = .ok w1 ∧ E.eval w1 = .ok (some (r, rho)) ∧
      lineSearch (multiKind E) w = .ok (w', alpha) ∧
      (guess E.length E.lhs r0 (some (r, rho)) ++ firstCandidates).head? = some alpha := by
  obtain ⟨w1, r, h1, h2⟩ := hev w rfl
  obtain ⟨a, l, hl⟩ : ∃ a l, guess E.length E.lhs r0 (some (r, rho)) ++ firstCandidates = a :: l := by
    cases h : guess E.length E.lhs r0 (some (r, rho)) with
    | nil => exact ⟨_, _, rfl⟩
    | cons a l => exact ⟨a, l ++ firstCandidates, rfl⟩
  obtain ⟨w2, r2, h3, h4⟩ := hev ((multiKind E).restore w w1) rfl
  obtain ⟨s', q1, q2, q3⟩ := first_loop_blind hev l
    { vecs := (multiKind E).restore w w2, bestAlpha := a, bestResidual := rho, increases := [] } rfl rfl
  have hfold : (guess E.length E.lhs r0 (some (r, rho)) ++ firstCandidates).foldlM
      (tryFirst (multiKind E) w)
      { vecs := (multiKind E).restore w w1, bestAlpha := 1, bestResidual := 10 ^ 50, increases := [] } =
      .ok s' := by
    rw [hl]
    refine foldlM_cons_ok.mpr ⟨_, ?_, q1⟩
    unfold tryFirst
    have : (multiKind E).moveFirst ((multiKind E).restore w w1) a = .ok w2 := h3
    simp only
    rw [this]
    simp only [Outcome.ok_bind]
    have : (multiKind E).eval w2 = .ok (some (r2, rho)) := h4
    rw [this]
    simp only [Outcome.ok_bind, keepBest]
    rw [if_pos hb]
  refine ⟨s'.vecs, a, w1, r, h1, h2, ?_, by rw [hl]; rfl⟩
  unfold lineSearch
  have : (multiKind E).eval w = .ok (some (r0, rho0)) := h0
  rw [this]
  simp only [Outcome.ok_bind]
  rw [if_neg (ne_of_gt hpos)]
  unfold searchFrom
  have : (multiKind E).move w epsilon = .ok w1 := h1
  rw [this]
  simp only [Outcome.ok_bind]
  have : (multiKind E).eval w1 = .ok (some (r, rho)) := h2
  rw [this]
  simp only [Outcome.ok_bind]
  have : (guess (multiKind E).length (multiKind E).lhs r0 (some (r, rho)) ++ firstCandidates).foldlM
      (tryFirst (multiKind E) w)
      { vecs := (multiKind E).restore w w1, bestAlpha := 1, bestResidual := 10 ^ 50, increases := [] } =
      .ok s' := hfold
  rw [this]
  simp only [Outcome.ok_bind]
  rw [if_pos (by rw [q3, lt_div_iff₀ hpos]; linarith), q2]

theorem demo_move (s : Multi) (hs : s.all.deltaU = rest.all.deltaU) (a : ℝ) :
    ∃ s', moveMulti demoMulti s a = .ok s' ∧ s'.fluid.y 0 = a := by
  refine ⟨_, if_neg (by norm_num [demoMulti]), ?_⟩
  show (0 : ℝ) + (s.all.deltaU 3 + a * 1) = a
  rw [hs]
  show (0 : ℝ) + (0 + a * 1) = a
  ring

theorem demo_eps (s : Multi) (hs : s.all.deltaU = rest.all.deltaU) :
    ∃ s' r, moveMulti demoMulti s epsilon = .ok s' ∧ demoMulti.eval s' = .ok (some (r, 1 / 2)) ∧
      r = fun k => if k = 3 then 1 / 2 else 0 := by
  obtain ⟨s', h1, h2⟩ := demo_move s hs epsilon
  refine ⟨s', _, h1, ?_, rfl⟩
  simp only [demoMulti]
  rw [h2, if_neg (by norm_num [epsilon]), if_pos (by norm_num [epsilon])]

/-- **C44 is false as stated** for multiphysics analyses: the full step would make the residual vanish, but
the search returns a step length of 0.0002, for which it is one half of what it was. -/
theorem C44_multiphysics_not_best :
    ∃ (E : MultiEnv) (w w' : Multi) (alpha : ℝ), lineSearch (multiKind E) w = .ok (w', alpha) ∧
      E.dt ≠ 0 ∧ (∃ r0, E.eval w = .ok (some (r0, 1))) ∧ MultiNormAt E w alpha (1 / 2) ∧
      1 ∈ firstCandidates ∧ MultiNormAt E w 1 0 := by
  have h0 : demoMulti.eval rest = .ok (some (fun k => if k = 3 then 1 else 0, 1)) := by
    have : rest.fluid.y 0 = 0 := rfl
    simp only [demoMulti]
    rw [this, if_neg (by norm_num), if_neg (lt_irrefl _)]
  obtain ⟨w', alpha, w1, r, h1, h2, h3, h4⟩ := C44_multiphysics_blind_partial demoMulti rest _ 1 (1 / 2) h0
    (by norm_num) (by norm_num) (by norm_num)
    (fun s hs => by obtain ⟨s', r, a, b, _⟩ := demo_eps s hs; exact ⟨s', r, a, b⟩)
  obtain ⟨w2, r2, q1, q2, q3⟩ := demo_eps rest rfl
  have e1 : w1 = w2 := ok_inj (h1.symm.trans q1)
  subst e1
  have e2 : some (r, (1 / 2 : ℝ)) = some (r2, 1 / 2) := ok_inj (h2.symm.trans q2)
  rw [e2, q3] at h4
  have hd1 : dot demoMulti.length demoMulti.lhs (fun k => if k = 3 then 1 / 2 else 0) = 1 / 2 := by
    simp [dot, demoMulti, Finset.sum_range_succ]
  have hd2 : dot demoMulti.length demoMulti.lhs (fun k => if k = 3 then 1 else 0) = 1 := by
    simp [dot, demoMulti, Finset.sum_range_succ]
  have ha : alpha = 2 / 10 ^ 4 := by
    simp only [guess] at h4
    rw [hd1, hd2, if_neg (by norm_num), if_pos (by norm_num [epsilon])] at h4
    simp only [List.cons_append, List.head?_cons, Option.some.injEq] at h4
    rw [← h4]
    norm_num [epsilon]
  refine ⟨demoMulti, rest, w', alpha, h3, by norm_num [demoMulti], ⟨_, h0⟩, ?_, one_mem_first, ?_⟩
  · obtain ⟨s', z1, z2⟩ := demo_move rest rfl alpha
    refine ⟨s', fun k => if k = 3 then 1 / 2 else 0, z1, ?_⟩
    simp only [demoMulti]
    rw [z2, ha, if_neg (by norm_num), if_pos (by norm_num)]
  · obtain ⟨s', z1, z2⟩ := demo_move rest rfl 1
    refine ⟨s', fun _ => 0, z1, ?_⟩
    simp only [demoMulti]
    rw [z2, if_pos rfl]

end Verif.LineSearch
