import Verif.LineSearch.Spec
import Verif.BC.Lemmas

/-!
# Line search: helper lemmas
-/

namespace Verif.LineSearch

open Verif Verif.BC

variable {T : Type}

/-- What holds after the candidates `l` have been tried: the best is the default with no candidate
below 1e50, or one of the candidates, not worse than any of them. -/
structure Inv (at_ : ℝ → ℝ → Prop) (l : List ℝ) (s : Search T) : Prop where
  le : ∀ beta ∈ l, ∀ rho, at_ beta rho → s.bestResidual ≤ rho
  best : (s.bestResidual = 10 ^ 50 ∧ s.bestAlpha = 1) ∨
    (s.bestAlpha ∈ l ∧ at_ s.bestAlpha s.bestResidual)
  bound : s.bestResidual ≤ 10 ^ 50

theorem Inv.cons {at_ : ℝ → ℝ → Prop} {l : List ℝ} {s s' : Search T} (hs : Inv at_ l s) {a : ℝ}
    (hc : ((∀ rho, at_ a rho → s.bestResidual ≤ rho) ∧ s'.bestAlpha = s.bestAlpha ∧
        s'.bestResidual = s.bestResidual) ∨
      (s'.bestAlpha = a ∧ at_ a s'.bestResidual ∧ s'.bestResidual < s.bestResidual ∧
        ∀ rho, at_ a rho → s'.bestResidual ≤ rho)) : Inv at_ (l ++ [a]) s' := by
  rcases hc with ⟨h1, h2, h3⟩ | ⟨h1, h2, h3, h4⟩
  · refine ⟨?_, ?_, by rw [h3]; exact hs.bound⟩
    · intro b hb rho hr
      rw [h3]
      rcases List.mem_append.mp hb with hb | hb
      · exact hs.le b hb rho hr
      · rw [List.mem_singleton.mp hb] at hr; exact h1 rho hr
    · rw [h2, h3]
      exact hs.best.imp id fun h => ⟨List.mem_append_left _ h.1, h.2⟩
  · refine ⟨?_, .inr ⟨by rw [h1]; simp, by rw [h1]; exact h2⟩, le_trans (le_of_lt h3) hs.bound⟩
    intro b hb rho hr
    rcases List.mem_append.mp hb with hb | hb
    · exact le_trans (le_of_lt h3) (hs.le b hb rho hr)
    · rw [List.mem_singleton.mp hb] at hr; exact h4 rho hr

/-- Norms seen by the first loop (second argument of `tryFirst`). -/
def FirstAt (K : Kind T) (w : T) (a rho : ℝ) : Prop :=
  ∃ w' r, K.moveFirst w a = .ok w' ∧ K.eval w' = .ok (some (r, rho))

/-- Norms seen by the second loop. -/
def SecondAt (K : Kind T) (w : T) (a rho : ℝ) : Prop :=
  ∃ w' r, K.move w a = .ok w' ∧ K.eval w' = .ok (some (r, rho))

/-- The vectors are as saved as far as `move` can tell. -/
structure Good (K : Kind T) : Prop where
  move : ∀ saved w a w1 b, K.move w a = .ok w1 → K.move (K.restore saved w1) b = K.move saved b
  moveFirst : ∀ saved w a w1 b, K.move w a = .ok w1 →
    K.moveFirst (K.restore saved w1) b = K.moveFirst saved b
  first_move : ∀ w a w1, K.moveFirst w a = .ok w1 → ∃ b, K.move w b = .ok w1

theorem keepBest_cases (s : Search T) (a : ℝ) (r : Evaluation) :
    (keepBest s a r = s ∧ ∀ v rho, r = some (v, rho) → s.bestResidual ≤ rho) ∨
    ∃ v rho, r = some (v, rho) ∧ rho < s.bestResidual ∧
      keepBest s a r = { s with bestAlpha := a, bestResidual := rho } := by
  cases r with
  | none => exact .inl ⟨rfl, by simp⟩
  | some p =>
    obtain ⟨v, rho⟩ := p
    by_cases h : rho < s.bestResidual
    · exact .inr ⟨v, rho, rfl, h, if_pos h⟩
    · refine .inl ⟨if_neg h, ?_⟩
      intro v' rho' e
      simp only [Option.some.injEq, Prod.mk.injEq] at e
      rw [← e.2]; exact not_lt.mp h

theorem keepBestOrIncrease_cases (u : ℝ) (s : Search T) (a : ℝ) (r : Evaluation) :
    ((keepBestOrIncrease u s a r).bestAlpha = s.bestAlpha ∧
      (keepBestOrIncrease u s a r).bestResidual = s.bestResidual ∧
      (keepBestOrIncrease u s a r).vecs = s.vecs ∧
      (∀ v rho, r = some (v, rho) → s.bestResidual ≤ rho)) ∨
    ∃ v rho, r = some (v, rho) ∧ rho < s.bestResidual ∧
      keepBestOrIncrease u s a r = { s with bestAlpha := a, bestResidual := rho } := by
  cases r with
  | none => exact .inl ⟨rfl, rfl, rfl, by simp⟩
  | some p =>
    obtain ⟨v, rho⟩ := p
    by_cases h : rho < s.bestResidual
    · exact .inr ⟨v, rho, rfl, h, if_pos h⟩
    · have hle : ∀ v' rho', some (v, rho) = some (v', rho') → s.bestResidual ≤ rho' := by
        intro v' rho' e
        simp only [Option.some.injEq, Prod.mk.injEq] at e
        rw [← e.2]; exact not_lt.mp h
      refine .inl ?_
      simp only [keepBestOrIncrease]
      rw [if_neg h]
      split
      · exact ⟨rfl, rfl, rfl, hle⟩
      · exact ⟨rfl, rfl, rfl, hle⟩

/-- The vectors of the search come from the saved ones by a move and a restoration. -/
def Restored (K : Kind T) (saved : T) (w : T) : Prop :=
  ∃ w0 a w1, K.move w0 a = .ok w1 ∧ w = K.restore saved w1

theorem first_loop {K : Kind T} (hK : Good K) {saved : T} : ∀ (l m : List ℝ) (s s' : Search T),
    Restored K saved s.vecs → Inv (FirstAt K saved) l s → m.foldlM (tryFirst K saved) s = .ok s' →
    Restored K saved s'.vecs ∧ Inv (FirstAt K saved) (l ++ m) s' := by
  intro l m
  induction m generalizing l with
  | nil => intro s s' hr hi h; rw [← ok_inj h]; simpa using ⟨hr, hi⟩
  | cons a m ih =>
    intro s s' hr hi h
    obtain ⟨s1, h1, h⟩ := foldlM_cons_ok.mp h
    unfold tryFirst at h1
    obtain ⟨w, hw, h1⟩ := Outcome.bind_eq_ok.mp h1
    obtain ⟨r, he, h1⟩ := Outcome.bind_eq_ok.mp h1
    obtain ⟨w0, a0, w1, hm, hv⟩ := hr
    have hw' : K.moveFirst saved a = .ok w := by
      rw [← hw, hv, hK.moveFirst saved w0 a0 w1 a hm]
    obtain ⟨b, hb⟩ := hK.first_move _ _ _ hw
    have e := ok_inj h1
    have hat : ∀ rho, FirstAt K saved a rho → ∃ v, r = some (v, rho) := by
      rintro rho ⟨w2, v, q1, q2⟩
      rw [hw'] at q1
      rw [← ok_inj q1, he] at q2
      exact ⟨v, ok_inj q2⟩
    have key := ih (l ++ [a]) s1 s'
    rw [List.append_assoc] at key
    refine key ?_ ?_ h
    · rcases keepBest_cases { s with vecs := K.restore saved w } a r with ⟨q, _⟩ | ⟨v, rho, _, _, q⟩
      · rw [← e, q]; exact ⟨s.vecs, b, w, hb, rfl⟩
      · rw [← e, q]; exact ⟨s.vecs, b, w, hb, rfl⟩
    · refine hi.cons ?_
      rcases keepBest_cases { s with vecs := K.restore saved w } a r with ⟨q, hq⟩ | ⟨v, rho, q0, q1, q⟩
      · refine .inl ⟨?_, by rw [← e, q], by rw [← e, q]⟩
        intro rho hr
        obtain ⟨v, hv⟩ := hat rho hr
        exact hq v rho hv
      · refine .inr ⟨by rw [← e, q], ?_, by rw [← e, q]; exact q1, ?_⟩
        · rw [← e, q]
          exact ⟨w, v, hw', by rw [he, q0]⟩
        · intro rho' hr
          obtain ⟨v', hv'⟩ := hat rho' hr
          rw [q0] at hv'
          simp only [Option.some.injEq, Prod.mk.injEq] at hv'
          rw [← e, q, ← hv'.2]

theorem second_loop {K : Kind T} (hK : Good K) {saved : T} {u : ℝ} (at_ : ℝ → ℝ → Prop) :
    ∀ (l m : List ℝ) (s s' : Search T), (∀ a ∈ m, ∀ rho, at_ a rho ↔ SecondAt K saved a rho) →
    Restored K saved s.vecs → Inv at_ l s → m.foldlM (trySecond K saved u) s = .ok s' →
    Restored K saved s'.vecs ∧ Inv at_ (l ++ m) s' := by
  intro l m
  induction m generalizing l with
  | nil => intro s s' _ hr hi h; rw [← ok_inj h]; simpa using ⟨hr, hi⟩
  | cons a m ih =>
    intro s s' hat' hr hi h
    obtain ⟨s1, h1, h⟩ := foldlM_cons_ok.mp h
    unfold trySecond at h1
    obtain ⟨w, hw, h1⟩ := Outcome.bind_eq_ok.mp h1
    obtain ⟨r, he, h1⟩ := Outcome.bind_eq_ok.mp h1
    obtain ⟨w0, a0, w1, hm, hv⟩ := hr
    have hw' : K.move saved a = .ok w := by
      rw [← hw, hv, hK.move saved w0 a0 w1 a hm]
    have e := ok_inj h1
    have hat : ∀ rho, at_ a rho → ∃ v, r = some (v, rho) := by
      intro rho hx
      obtain ⟨w2, v, q1, q2⟩ := (hat' a (by simp) rho).mp hx
      rw [hw'] at q1
      rw [← ok_inj q1, he] at q2
      exact ⟨v, ok_inj q2⟩
    have key := ih (l ++ [a]) s1 s' (fun b hb => hat' b (by simp [hb]))
    rw [List.append_assoc] at key
    refine key ?_ ?_ h
    · rcases keepBestOrIncrease_cases u { s with vecs := K.restore saved w } a r with
        ⟨_, _, q, _⟩ | ⟨v, rho, _, _, q⟩
      · rw [← e, q]; exact ⟨s.vecs, a, w, hw, rfl⟩
      · rw [← e, q]; exact ⟨s.vecs, a, w, hw, rfl⟩
    · refine hi.cons ?_
      rcases keepBestOrIncrease_cases u { s with vecs := K.restore saved w } a r with
        ⟨q1, q2, _, hq⟩ | ⟨v, rho, q0, q1, q⟩
      · refine .inl ⟨?_, by rw [← e, q1], by rw [← e, q2]⟩
        intro rho hr
        obtain ⟨v, hv⟩ := hat rho hr
        exact hq v rho hv
      · refine .inr ⟨by rw [← e, q], ?_, by rw [← e, q]; exact q1, ?_⟩
        · rw [← e, q]
          exact (hat' a (by simp) rho).mpr ⟨w, v, hw', by rw [he, q0]⟩
        · intro rho' hr
          obtain ⟨v', hv'⟩ := hat rho' hr
          rw [q0] at hv'
          simp only [Option.some.injEq, Prod.mk.injEq] at hv'
          rw [← e, q, ← hv'.2]

/-- Every recorded increase belongs to a candidate. -/
theorem second_increases {K : Kind T} {saved : T} {u : ℝ} : ∀ (m : List ℝ) (s s' : Search T),
    m.foldlM (trySecond K saved u) s = .ok s' → ∀ p ∈ s'.increases, p ∈ s.increases ∨ p.1 ∈ m := by
  intro m
  induction m with
  | nil => intro s s' h p hp; rw [← ok_inj h] at hp; exact .inl hp
  | cons a m ih =>
    intro s s' h p hp
    obtain ⟨s1, h1, h⟩ := foldlM_cons_ok.mp h
    unfold trySecond at h1
    obtain ⟨w, hw, h1⟩ := Outcome.bind_eq_ok.mp h1
    obtain ⟨r, he, h1⟩ := Outcome.bind_eq_ok.mp h1
    have e := ok_inj h1
    rcases ih s1 s' h p hp with hx | hx
    · rw [← e] at hx
      cases r with
      | none => exact .inl hx
      | some q =>
        unfold keepBestOrIncrease at hx
        simp only at hx
        split at hx
        · exact .inl hx
        · split at hx
          · rcases List.mem_append.mp hx with hx | hx
            · exact .inl hx
            · rw [List.mem_singleton] at hx
              exact .inr (by rw [hx]; simp)
          · exact .inl hx
    · exact .inr (by simp [hx])

theorem closest_mem : ∀ (l : List (ℝ × ℝ)) (b : ℝ × ℝ),
    (l.foldl (fun b p => open Classical in if |p.2 - 0.1| < b.2 then (p.1, |p.2 - 0.1|) else b) b).1 = b.1 ∨
    ∃ p ∈ l, (l.foldl (fun b p => open Classical in if |p.2 - 0.1| < b.2 then (p.1, |p.2 - 0.1|) else b) b).1
      = p.1 := by
  intro l
  induction l with
  | nil => intro b; exact .inl rfl
  | cons q l ih =>
    intro b
    rw [List.foldl_cons]
    rcases ih (open Classical in if |q.2 - 0.1| < b.2 then (q.1, |q.2 - 0.1|) else b) with h | ⟨p, hp, h⟩
    · rw [h]
      split
      · exact .inr ⟨q, by simp, rfl⟩
      · exact .inl rfl
    · exact .inr ⟨p, by simp [hp], h⟩

theorem good_mech (E : MechEnv) : Good (mechKind E) := by
  refine ⟨?_, ?_, fun w a w1 h => ⟨a, h⟩⟩ <;>
    (intro saved w a w1 b _; rfl)

theorem moveMech_ok {E : MechEnv} (hdt : E.dt ≠ 0) (w : Mech) (a : ℝ) :
    moveMech E w a = .ok (trialOf E w a) := by
  unfold moveMech
  rw [if_neg hdt]
  unfold trialOf
  simp only [add_assoc]

theorem mech_at {E : MechEnv} (hdt : E.dt ≠ 0) (w : Mech) (a rho : ℝ) :
    SecondAt (mechKind E) w a rho ↔ NormAt E w a rho := by
  constructor
  · rintro ⟨w', r, h1, h2⟩
    have : trialOf E w a = w' := ok_inj ((moveMech_ok hdt w a).symm.trans h1)
    exact ⟨r, by rw [this]; exact h2⟩
  · rintro ⟨r, h⟩
    exact ⟨_, r, moveMech_ok hdt w a, h⟩

theorem mech_first_at {E : MechEnv} (hdt : E.dt ≠ 0) (w : Mech) (a rho : ℝ) :
    FirstAt (mechKind E) w a rho ↔ NormAt E w a rho := mech_at hdt w a rho

end Verif.LineSearch
