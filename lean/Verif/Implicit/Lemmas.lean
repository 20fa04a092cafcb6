import Verif.Implicit.Model
import Verif.QuasiStatic.SolveLemmas

/-!
# Implicit dynamics: helper lemmas
-/

namespace Verif.Implicit

open Verif Verif.BC Verif.Explicit Verif.QuasiStatic

variable {σ ω : Type} {P : Params} {E : Env} {S : Solver σ ω}

/-- The trial state belongs to its displacement. -/
structure Consistent (P : Params) (E : Env) (u2 v2 : Nat → ℝ) (t : Trial) : Prop where
  nz : P.beta * (P.dt * P.dt) ≠ 0
  a : ∀ i, t.a i = (t.vecs .u i - u2 i) / (P.beta * (P.dt * P.dt))
  v : ∀ i, t.vecs .v i = v2 i + P.dt * P.gamma * t.a i
  y : ∀ i, t.vecs .y i = E.C.x i + t.vecs .u i

theorem place_ok {u2 v2 u : Nat → ℝ} {w : Vecs} {t : Trial} (h : place P E u2 v2 w u = .ok t) :
    Consistent P E u2 v2 t ∧ t.vecs .u = u ∧
      ∀ q, q ≠ .u → q ≠ .v → q ≠ .y → t.vecs q = w q := by
  unfold place at h
  split at h
  · exact absurd h (by simp)
  · rename_i hz
    have e := ok_inj h
    subst e
    have hu : (setVec (setVec (setVec w .u u) .v
        fun i => v2 i + P.dt * P.gamma * ((u i - u2 i) * (1.0 / (P.beta * (P.dt * P.dt)))))
        .y fun i => E.C.x i + u i) .u = u := by
      rw [setVec_ne _ _ (by decide), setVec_ne _ _ (by decide), setVec_self]
    refine ⟨⟨hz, fun i => ?_, fun i => ?_, fun i => ?_⟩, hu, fun q h1 h2 h3 => ?_⟩
    · simp only
      rw [hu]
      have h1 : (1.0 : ℝ) = 1 := by norm_num
      rw [h1, mul_one_div]
    · simp only
      rw [setVec_ne _ _ (by decide), setVec_self]
    · simp only
      rw [setVec_self, hu]
    · simp only
      rw [setVec_ne _ _ h3, setVec_ne _ _ h2, setVec_ne _ _ h1]

/-- The force has been evaluated at the trial state (whose external force may still have been the
old one), the body force is that of the given times, the residual follows. -/
structure Evaluated (P : Params) (E : Env) (S : Solver σ ω) (N : σ) (tc tp : ℝ) (t : Iter ω) :
    Prop where
  ev : ∃ wk w, S.force N wk w t.trial.a = .ok (t.work, t.force) ∧
    (∀ q, q ≠ .externalForce → w q = t.trial.vecs q) ∧
    applyForces E.C E.cs.force tc tp w = .ok t.trial.vecs
  res : zeroed E (fun i => P.beta * (P.dt * P.dt) *
    (P.density (i / 3) * t.trial.a i - t.force i - t.trial.vecs .externalForce i)) = .ok t.residual
  norm : t.norm = norm2 E.length t.residual

theorem evaluate_ok {ds : List Definition} (hcs : makeConditions ds = .ok E.cs) {N : σ} {work : ω}
    {tc tp : ℝ} {t : Trial} {r : Iter ω} (h : evaluate P E S N work tc tp t = .ok r) :
    Evaluated P E S N tc tp r ∧ r.trial.a = t.a ∧
      ∀ q, q ≠ .externalForce → r.trial.vecs q = t.vecs q := by
  unfold evaluate at h
  obtain ⟨p, hp, h⟩ := Outcome.bind_eq_ok.mp h
  obtain ⟨w, hw, h⟩ := Outcome.bind_eq_ok.mp h
  obtain ⟨z, hz, h⟩ := Outcome.bind_eq_ok.mp h
  have e := ok_inj h
  subst e
  have hk : ∀ q, q ≠ .externalForce → w q = t.vecs q := fun q hq => forces_keep hcs hw hq
  exact ⟨⟨⟨work, t.vecs, hp, fun q hq => (hk q hq).symm, hw⟩, hz, rfl⟩, rfl, hk⟩

theorem Consistent.congr {u2 v2 : Nat → ℝ} {t t' : Trial} (h : Consistent P E u2 v2 t)
    (ha : t'.a = t.a) (hv : ∀ q, q ≠ .externalForce → t'.vecs q = t.vecs q) :
    Consistent P E u2 v2 t' := by
  refine ⟨h.nz, fun i => ?_, fun i => ?_, fun i => ?_⟩
  · rw [ha, hv .u (by decide)]; exact h.a i
  · rw [ha, hv .v (by decide)]; exact h.v i
  · rw [hv .y (by decide), hv .u (by decide)]; exact h.y i

theorem iterate_ok {ds : List Definition} (hcs : makeConditions ds = .ok E.cs) {N : σ}
    {u2 v2 : Nat → ℝ} {tc tp : ℝ} : ∀ (fuel : Nat) (t t' : Iter ω),
    Consistent P E u2 v2 t.trial → Evaluated P E S N tc tp t →
    iterate P E S N u2 v2 tc tp fuel t = .ok t' →
    Consistent P E u2 v2 t'.trial ∧ Evaluated P E S N tc tp t' := by
  intro fuel
  induction fuel with
  | zero => intro t t' hc he h; rw [← ok_inj h]; exact ⟨hc, he⟩
  | succ fuel ih =>
    intro t t' hc he h
    unfold iterate at h
    split at h
    · obtain ⟨d, _, h⟩ := Outcome.bind_eq_ok.mp h
      obtain ⟨t1, h1, h⟩ := Outcome.bind_eq_ok.mp h
      obtain ⟨t2, h2, h⟩ := Outcome.bind_eq_ok.mp h
      obtain ⟨e1, e2, e3⟩ := evaluate_ok hcs h2
      exact ih t2 t' ((place_ok h1).1.congr e2 e3) e1 h
    · rw [← ok_inj h]; exact ⟨hc, he⟩

theorem solve_ok {ds : List Definition} (hcs : makeConditions ds = .ok E.cs) {s : State σ ω}
    {t : Iter ω} (h : solve P E S s = .ok t) :
    Consistent P E (knownU P s.vecs s.a) (knownV P s.vecs s.a) t.trial ∧
      Evaluated P E S s.N s.time s.timePrevious t := by
  unfold solve at h
  obtain ⟨t1, h1, h⟩ := Outcome.bind_eq_ok.mp h
  obtain ⟨t2, h2, h⟩ := Outcome.bind_eq_ok.mp h
  obtain ⟨e1, e2, e3⟩ := evaluate_ok hcs h2
  exact iterate_ok hcs _ t2 t ((place_ok h1).1.congr e2 e3) e1 h

theorem knownU_eq (w : Vecs) (a : Nat → ℝ) (i : Nat) : knownU P w a i = w .u i + P.dt * w .v i +
    1 / 2 * (P.dt * P.dt) * (1 - 2 * P.beta) * a i := by
  unfold knownU; norm_num

theorem knownV_eq (w : Vecs) (a : Nat → ℝ) (i : Nat) :
    knownV P w a i = w .v i + P.dt * (1 - P.gamma) * a i := by
  unfold knownV; norm_num

theorem run_succ {s s' : State σ ω} {n : Nat} (h : run P E S s (n + 1) = .ok s') :
    ∃ s1 t, run P E S s n = .ok s1 ∧ solve P E S s1 = .ok t ∧ s' = finish P S s1 n t := by
  obtain ⟨s1, h1, h⟩ := Outcome.bind_eq_ok.mp h
  obtain ⟨t, h2, h⟩ := Outcome.bind_eq_ok.mp h
  exact ⟨s1, t, h1, h2, (ok_inj h).symm⟩

theorem run_time {s : State σ ω} (hs : s.time = P.timeInitial) (hp : s.timePrevious = P.timeInitial) :
    ∀ (n : Nat) (s' : State σ ω), run P E S s n = .ok s' →
    s'.time = P.timeInitial + n * P.dt ∧ s'.timePrevious = P.timeInitial + (n - 1 : ℕ) * P.dt := by
  intro n
  induction n with
  | zero => intro s' h; rw [← ok_inj h, hs, hp]; simp
  | succ n ih =>
    intro s' h
    obtain ⟨s1, t, h1, h2, rfl⟩ := run_succ h
    exact ⟨rfl, (ih s1 h1).1⟩

/-- The entry `i` of every solution of the linear system vanishes if that of the right hand side
does, as is the case for a row that has been replaced by a multiple of the unit row. -/
def Decoupled (S : Solver σ ω) (i : Nat) : Prop :=
  ∀ N wk w a r d, S.direction N wk w a r = .ok d → r i = 0 → d.2 i = 0

theorem iterate_held {N : σ} {u2 v2 : Nat → ℝ} {tc tp : ℝ} {ds : List Definition}
    (hcs : makeConditions ds = .ok E.cs) {i : Nat} (hd : Decoupled S i)
    (hz : ∀ f r, zeroed E f = .ok r → r i = 0) :
    ∀ (fuel : Nat) (t t' : Iter ω), Evaluated P E S N tc tp t → t.trial.vecs .u i = u2 i →
    iterate P E S N u2 v2 tc tp fuel t = .ok t' → t'.trial.vecs .u i = u2 i := by
  intro fuel
  induction fuel with
  | zero => intro t t' _ hu h; rw [← ok_inj h]; exact hu
  | succ fuel ih =>
    intro t t' he hu h
    unfold iterate at h
    split at h
    · obtain ⟨d, h0, h⟩ := Outcome.bind_eq_ok.mp h
      obtain ⟨t1, h1, h⟩ := Outcome.bind_eq_ok.mp h
      obtain ⟨t2, h2, h⟩ := Outcome.bind_eq_ok.mp h
      obtain ⟨e1, e2, e3⟩ := evaluate_ok hcs h2
      refine ih t2 t' e1 ?_ h
      rw [e3 .u (by decide), (place_ok h1).2.1]
      have := hd _ _ _ _ _ _ h0 (by rw [hz _ _ he.res, mul_zero])
      show t.trial.vecs .u i + d.2 i = u2 i
      rw [this, add_zero, hu]
    · rw [← ok_inj h]; exact hu

theorem solve_held {ds : List Definition} (hcs : makeConditions ds = .ok E.cs) {i : Nat}
    (hd : Decoupled S i) (hz : ∀ f r, zeroed E f = .ok r → r i = 0) {s : State σ ω} {t : Iter ω}
    (h : solve P E S s = .ok t) : t.trial.vecs .u i = knownU P s.vecs s.a i := by
  unfold solve at h
  obtain ⟨t1, h1, h⟩ := Outcome.bind_eq_ok.mp h
  obtain ⟨t2, h2, h⟩ := Outcome.bind_eq_ok.mp h
  obtain ⟨e1, e2, e3⟩ := evaluate_ok hcs h2
  exact iterate_held hcs hd hz _ t2 t e1 (by rw [e3 .u (by decide), (place_ok h1).2.1]) h

end Verif.Implicit
