import Verif.Nox.ResidualProps

/-!
# Quasi-statics with NOX: load steps (C73)
-/

namespace Verif.Nox

open Verif Verif.BC Verif.Explicit

variable {σ ω : Type}

/-! ## Increment and velocity of the boundary conditions -/

/-- The rate a prescribed displacement writes is the increment it writes over the time step. -/
theorem rate_value {C : Ctx} {d : Definition} {u : Nat → ℝ} {tc tp r r' : ℝ} {l : Nat}
    (h : nodeValue C (obj d .deltaU (.increment 1 0 false)) u tc tp l = .ok r)
    (h' : nodeValue C (obj d .v (.increment 0 1 false)) u tc tp l = .ok r') : r' = r / (tc - tp) := by
  have hp : ∀ q, evaluateParser C (obj d .v (.increment 0 1 false)) u l tc q =
      evaluateParser C (obj d .deltaU (.increment 1 0 false)) u l tc q := fun q => rfl
  unfold nodeValue at h h'
  simp only [obj] at h h'
  obtain ⟨p, h1, h⟩ := Outcome.bind_eq_ok.mp h
  obtain ⟨p', h1', h'⟩ := Outcome.bind_eq_ok.mp h'
  have e : p = p' := ok_inj (h1.symm.trans ((hp _).symm.trans h1'))
  subst e
  unfold incrementValue at h h'
  split at h
  · exact absurd h (by simp)
  · rename_i hne
    rw [if_neg hne] at h'
    rw [← ok_inj h, ← ok_inj h']
    have ht : previousTime false tp = tp := rfl
    rw [ht]
    ring

/-- The conditions of one definition keep velocity and increment in step. -/
theorem definition_rate {C : Ctx} {d : Definition} {tc tp : ℝ} (hne : tc ≠ tp)
    (hco : ∀ c ∈ boundaryOf d, c.coord < dim c.target) {s s' : Vecs}
    (h : (boundaryOf d).foldlM (BC.apply C tc tp) s = .ok s')
    (hs : ∀ i, s .v i = s .deltaU i / (tc - tp)) :
    ∀ i, s' .v i = s' .deltaU i / (tc - tp) := by
  have hkeep : (∀ c ∈ boundaryOf d, c.target ≠ .v ∧ c.target ≠ .deltaU) →
      ∀ i, s' .v i = s' .deltaU i / (tc - tp) := by
    intro hc i
    obtain ⟨_, a2, _⟩ := applyAll_ok (boundaryOf d)
      (fun c hc' => (boundary_target (ds := [d]) (by simpa using hc')).1) hco s s' h
    rw [a2 .v i fun c hc' l hh => (hc c hc').1 hh.1, a2 .deltaU i fun c hc' l hh => (hc c hc').2 hh.1]
    exact hs i
  by_cases hd : d.type = .prescribedDisplacement
  · have hb : boundaryOf d = [obj d .deltaU (.increment 1 0 false), obj d .v (.increment 0 1 false)] := by
      unfold boundaryOf; rw [hd]
    rw [hb] at h hco
    obtain ⟨s1, h1, h⟩ := foldlM_cons_ok.mp h
    obtain ⟨s2, h2, h⟩ := foldlM_cons_ok.mp h
    have e := ok_inj h
    subst e
    obtain ⟨a1, a2, a3⟩ := apply_ok (by simp [obj]) (hco _ (List.mem_cons_self ..)) h1
    obtain ⟨b1, b2, b3⟩ := apply_ok (by simp [obj])
      (hco _ (List.mem_cons_of_mem _ (List.mem_cons_self ..))) h2
    intro i
    have hdu : s2 .deltaU i = s1 .deltaU i := b3 _ _ fun l hh => absurd hh.1 (by simp [obj])
    have hv : s1 .v i = s .v i := a3 _ _ fun l hh => absurd hh.1 (by simp [obj])
    by_cases hhit : ∃ l, Hits C (obj d .deltaU (.increment 1 0 false)) .deltaU i l
    · obtain ⟨l, hl⟩ := hhit
      have hl' : Hits C (obj d .v (.increment 0 1 false)) .v i l := ⟨rfl, hl.2.1, hl.2.2⟩
      have e1 := a2 (decide_eq_false hne) _ _ _ hl
      have e2 := b2 (decide_eq_false hne) _ _ _ hl'
      rw [a1] at e2
      rw [hdu]
      exact rate_value e1 e2
    · rw [not_exists] at hhit
      have e1 : s1 .deltaU i = s .deltaU i := a3 _ _ hhit
      have e2 : s2 .v i = s1 .v i :=
        b3 _ _ fun l hh => hhit l ⟨rfl, hh.2.1, hh.2.2⟩
      rw [hdu, e1, e2, hv]
      exact hs i
  · refine hkeep ?_
    intro c hc
    unfold boundaryOf at hc
    cases ht : d.type <;> rw [ht] at hc <;>
      simp only [List.mem_cons, List.not_mem_nil, or_false] at hc
    case prescribedDisplacement => exact absurd ht hd
    case prescribedFluidPressure => rcases hc with rfl | rfl <;> simp [obj]
    case prescribedTemperature => rcases hc with rfl | rfl <;> simp [obj]
    case thermalFlux => subst hc; simp [obj]

theorem boundary_rate {C : Ctx} {tc tp : ℝ} (hne : tc ≠ tp) : ∀ (ds : List Definition)
    (_ : ∀ c ∈ ds.flatMap boundaryOf, c.coord < dim c.target) (s s' : Vecs)
    (_ : (ds.flatMap boundaryOf).foldlM (BC.apply C tc tp) s = .ok s')
    (_ : ∀ i, s .v i = s .deltaU i / (tc - tp)), ∀ i, s' .v i = s' .deltaU i / (tc - tp) := by
  intro ds
  induction ds with
  | nil => intro _ s s' h hs; rw [← ok_inj h]; exact hs
  | cons d ds ih =>
    intro hco s s' h hs
    rw [List.flatMap_cons] at h hco
    obtain ⟨s1, h1, h2⟩ := foldlM_append_ok.mp h
    exact ih (fun c hc => hco c (List.mem_append_right _ hc)) s1 s' h2
      (definition_rate hne (fun c hc => hco c (List.mem_append_left _ hc)) h1 hs)

/-! ## The parts of a load step -/

theorem prepared_ok {E : QuasiStatic.Env} {ds : List Definition} (hcs : makeConditions ds = .ok E.cs)
    {tp tc : ℝ} {w w' : Vecs} (h : prepared E tp tc w = .ok w') :
    ∃ w1, applyBoundary E.C E.cs.boundary tc tp
        (setVec (setVec w .deltaU fun _ => 0) .v fun _ => 0) = .ok w1 ∧
      (∀ i, w' .u i = w .u i + w1 .deltaU i) ∧ w' .v = w1 .v ∧ w' .deltaU = w1 .deltaU := by
  unfold prepared at h
  obtain ⟨w1, h1, h⟩ := Outcome.bind_eq_ok.mp h
  refine ⟨w1, h1, ?_, ?_, ?_⟩
  · intro i
    rw [QuasiStatic.forces_keep hcs h (by decide), setVec_self, QuasiStatic.boundary_keeps_u hcs h1,
      setVec_ne _ _ (by decide), setVec_ne _ _ (by decide)]
  · rw [QuasiStatic.forces_keep hcs h (by decide), setVec_ne _ _ (by decide)]
  · rw [QuasiStatic.forces_keep hcs h (by decide), setVec_ne _ _ (by decide)]

theorem residuals_keep {E : QuasiStatic.Env} {S : Materials σ ω} {N : σ} {dt : ℝ} {bv : Nat → ℝ} :
    ∀ (xs : List (Nat → ℝ)) (s s' : Data ω) (rs : List (Nat → ℝ)),
    residuals E S N dt bv s xs = .ok (s', rs) → SameInput s'.vecs s.vecs ∧
      ∀ x, xs.getLast? = some x → ∀ i, s'.vecs .y i = E.C.x i + s.vecs .u i + x i := by
  intro xs
  induction xs with
  | nil =>
    intro s s' rs h
    have e := ok_inj h
    rw [Prod.mk.injEq] at e
    rw [← e.1]
    exact ⟨fun _ _ _ => rfl, fun x hx => by simp at hx⟩
  | cons x xs ih =>
    intro s s' rs h
    obtain ⟨s1, r, rs', h1, h2, _⟩ := residuals_cons h
    obtain ⟨w, p, m1, _, m3, _⟩ := residual_ok h1
    obtain ⟨i1, i2⟩ := ih s1 s' rs' h2
    have hk : SameInput s1.vecs s.vecs := by rw [m3]; exact moved_keeps m1
    refine ⟨fun t hy hv => (i1 t hy hv).trans (hk t hy hv), ?_⟩
    intro x' hx i
    cases xs with
    | nil =>
      have hx' : x = x' := by simpa using hx
      subst hx'
      have e := ok_inj h2
      rw [Prod.mk.injEq] at e
      rw [← e.1, m3]
      unfold moved at m1
      split at m1
      · exact absurd m1 (by simp)
      · rw [← ok_inj m1, setVec_ne _ _ (by decide), setVec_self]
    | cons x1 xs1 =>
      rw [i2 x' (by rw [List.getLast?_cons_cons] at hx; exact hx) i, hk .u (by decide) (by decide)]

theorem toleranceEvaluation_keeps {E : QuasiStatic.Env} {S : Materials σ ω} {N : σ} {relative : Bool}
    {dt : ℝ} {s s' : Data ω} (h : toleranceEvaluation E S N relative dt s = .ok s') (t : Target)
    (ht : t ≠ .y) : s'.vecs t = s.vecs t := by
  unfold toleranceEvaluation at h
  split at h
  · obtain ⟨p, _, h⟩ := Outcome.bind_eq_ok.mp h
    rw [← ok_inj h]
    exact setVec_ne _ _ ht
  · rw [← ok_inj h]

/-- The parts of a load step. -/
theorem loadStep_ok {E : QuasiStatic.Env} {S : Materials σ ω} {ds : List Definition}
    (hcs : makeConditions ds = .ok E.cs) {N : σ} {relative : Bool}
    {nox : (Nat → ℝ) → Option Solve} {tp tc : ℝ} {s d : Data ω}
    (h : loadStep E S N relative nox tp tc s = .ok d) :
    ∃ g sol w1, initialGuess E (tc - tp) s.vecs = .ok g ∧ nox g = some sol ∧ tc - tp ≠ 0 ∧
      applyBoundary E.C E.cs.boundary tc tp
        (setVec (setVec s.vecs .deltaU fun _ => 0) .v fun _ => 0) = .ok w1 ∧
      (∀ i, d.vecs .u i = s.vecs .u i + w1 .deltaU i + sol.final i) ∧
      (∀ i, d.vecs .v i = sol.final i / (tc - tp) + w1 .v i) ∧
      (sol.evaluated.getLast? = some sol.final → ∀ i, d.vecs .y i = E.C.x i + d.vecs .u i) := by
  unfold loadStep at h
  obtain ⟨g, h1, h⟩ := Outcome.bind_eq_ok.mp h
  obtain ⟨w, h2, h⟩ := Outcome.bind_eq_ok.mp h
  obtain ⟨e, h3, h⟩ := Outcome.bind_eq_ok.mp h
  cases hn : nox g with
  | none => rw [hn] at h; exact absurd h (by simp)
  | some sol =>
    rw [hn] at h
    simp only at h
    obtain ⟨p, h4, h⟩ := Outcome.bind_eq_ok.mp h
    obtain ⟨w', h5, h⟩ := Outcome.bind_eq_ok.mp h
    have hd := ok_inj h
    obtain ⟨w1, a1, a2, a3, a4⟩ := prepared_ok hcs h2
    obtain ⟨k1, k2⟩ := residuals_keep _ _ _ _ (show residuals E S N (tc - tp) (w .v) e sol.evaluated =
      .ok (p.1, p.2) from h4)
    have hu : ∀ i, p.1.vecs .u i = s.vecs .u i + w1 .deltaU i := by
      intro i
      rw [k1 .u (by decide) (by decide), toleranceEvaluation_keeps h3 _ (by decide)]
      exact a2 i
    unfold concluded at h5
    split at h5
    · exact absurd h5 (by simp)
    · rename_i hdt
      have hw := ok_inj h5
      have hdv : d.vecs = w' := by rw [← hd]
      have hdu : ∀ i, d.vecs .u i = s.vecs .u i + w1 .deltaU i + sol.final i := by
        intro i
        rw [hdv, ← hw, setVec_self, hu]
      refine ⟨g, sol, w1, h1, hn, hdt, a1, hdu, ?_, ?_⟩
      · intro i
        rw [hdv, ← hw, setVec_ne _ _ (by decide), setVec_self, a3]
      · intro hl i
        have := k2 _ hl i
        rw [toleranceEvaluation_keeps h3 _ (by decide)] at this
        rw [hdu i]
        rw [hdv, ← hw, setVec_ne _ _ (by decide), setVec_ne _ _ (by decide), this]
        show E.C.x i + w .u i + sol.final i = _
        rw [a2 i]
        ring

/-! ## C73 -/

/-- NOX returns zero where its initial guess is zero and the residual always is. -/
def HoldsZeros (nox : (Nat → ℝ) → Option Solve) (i : Nat) : Prop :=
  ∀ g sol, nox g = some sol → g i = 0 → sol.final i = 0

/-- Increment of the displacement at a prescribed component over one load step. -/
theorem loadStep_increment {E : QuasiStatic.Env} {S : Materials σ ω} {ds : List Definition}
    (hcs : makeConditions ds = .ok E.cs) (hm : E.dofs = dispOnly) {pre post : List Definition}
    {d : Definition} (hds : ds = pre ++ d :: post) (hd : d.type = .prescribedDisplacement)
    {g l k : Nat} (hl : lid E.C.owned g = some l) (hcov : Covers E.C.sets d g k)
    (hpost : ∀ d' ∈ post, d'.type = .prescribedDisplacement → ¬ Covers E.C.sets d' g k) {N : σ}
    {relative : Bool} {nox : (Nat → ℝ) → Option Solve} (hz : HoldsZeros nox (l * 3 + k)) {tp tc : ℝ}
    {s s' : Data ω} (h : loadStep E S N relative nox tp tc s = .ok s') :
    ∃ cur prev,
      d.value (E.C.x (l * 3)) (E.C.x (l * 3 + 1)) (E.C.x (l * 3 + 2)) tc = some cur ∧
      d.value (E.C.x (l * 3)) (E.C.x (l * 3 + 1)) (E.C.x (l * 3 + 2)) tp = some prev ∧
      s'.vecs .u (l * 3 + k) = s.vecs .u (l * 3 + k) +
        (cur - (if cur - prev = 0 then s.vecs .u (l * 3 + k) else prev)) := by
  have hk : k < 3 := by rw [← hcov.1]; exact d.coord.isLt
  obtain ⟨hbd, _, hco, _⟩ := makeConditions_ok hcs
  have hsplit : E.cs.boundary = pre.flatMap boundaryOf ++ obj d .deltaU (.increment 1 0 false) ::
      (obj d .v (.increment 0 1 false) :: post.flatMap boundaryOf) := by
    rw [hbd, hds, List.flatMap_append, List.flatMap_cons]
    have : boundaryOf d = [obj d .deltaU (.increment 1 0 false), obj d .v (.increment 0 1 false)] := by
      unfold boundaryOf; rw [hd]
    rw [this]; simp
  have hcon : Constrained E.dofs E.C.sets E.cs.boundary g .displacement k := by
    refine ⟨by rw [hm]; rfl, obj d .deltaU (.increment 1 0 false), by rw [hsplit]; simp, ?_, hcov.1, hcov.2⟩
    show unknownOf d.type = _
    rw [hd]; rfl
  obtain ⟨g0, sol, w1, a1, a2, a3, a4, a5, _⟩ := loadStep_ok hcs h
  have hfin : sol.final (l * 3 + k) = 0 :=
    hz g0 sol a2 ((QuasiStatic.zeroed_exact hcs hm a1 hl hk).1 hcon)
  have hne' : tc ≠ tp := fun e => a3 (by rw [e, sub_self])
  obtain ⟨_, _, b3⟩ := applyAll_ok E.cs.boundary (fun c hc =>
    (boundary_target (ds := ds) (by rw [← hbd]; exact hc)).1) hco _ _ a4
  have hval := b3 _ _ _ hsplit (decide_eq_false hne') .deltaU (l * 3 + k) l
    ⟨rfl, by
      show l * 3 + k = l * 3 + (d.coord : Nat)
      rw [hcov.1], by
      obtain ⟨_, nodes, hn, hg⟩ := hcov
      exact ⟨nodes, g, hn, hg, hl⟩⟩ (by
      intro c' hc' l' hhit
      rcases List.mem_cons.mp hc' with rfl | hc'
      · exact absurd hhit.1 (by simp [obj])
      · obtain ⟨d', hd', hc''⟩ := List.mem_flatMap.mp hc'
        obtain ⟨t1, t2⟩ := QuasiStatic.hits_boundary_deltaU hl hk hc'' hhit
        exact hpost d' hd' t1 t2)
  rw [setVec_ne _ _ (by decide), setVec_ne _ _ (by decide)] at hval
  obtain ⟨cur, prev, e1, e2, e3⟩ := QuasiStatic.increment_value hd hval
  refine ⟨cur, prev, e1, e2, ?_⟩
  rw [a5, hfin, e3, hcov.1, add_zero]

/-- **C73**: in a run of load steps of any number and lengths, the displacement of a component with
a prescribed displacement has the prescribed value at the end of every load step, provided it has it
at the beginning and NOX returns zero where its initial guess is zero. -/
theorem C73_follows (E : QuasiStatic.Env) (S : Materials σ ω) (ds : List Definition)
    (hcs : makeConditions ds = .ok E.cs) (hm : E.dofs = dispOnly) (pre post : List Definition)
    (d : Definition) (hds : ds = pre ++ d :: post) (hd : d.type = .prescribedDisplacement)
    (g l k : Nat) (hl : lid E.C.owned g = some l) (hcov : Covers E.C.sets d g k)
    (hpost : ∀ d' ∈ post, d'.type = .prescribedDisplacement → ¬ Covers E.C.sets d' g k)
    (relative : Bool) (shift : σ → ω → σ × ω) (steps : List (ℝ × ((Nat → ℝ) → Option Solve)))
    (hz : ∀ p ∈ steps, HoldsZeros p.2 (l * 3 + k)) (t0 : ℝ) (N : σ) (s : Data ω)
    (log : List (Record ω)) (h : run E S relative shift steps t0 N s = .ok log)
    (h0 : d.value (E.C.x (l * 3)) (E.C.x (l * 3 + 1)) (E.C.x (l * 3 + 2)) t0 =
      some (s.vecs .u (l * 3 + k))) :
    log.map Record.time = steps.map Prod.fst ∧
    ∀ r ∈ log, d.value (E.C.x (l * 3)) (E.C.x (l * 3 + 1)) (E.C.x (l * 3 + 2)) r.time =
      some (r.data.vecs .u (l * 3 + k)) := by
  induction steps generalizing t0 N s log with
  | nil => rw [← ok_inj h]; exact ⟨rfl, fun r hr => absurd hr (by simp)⟩
  | cons p steps ih =>
    obtain ⟨tc, nox⟩ := p
    obtain ⟨s1, h1, h⟩ := Outcome.bind_eq_ok.mp
      (show (loadStep E S N relative nox t0 tc s >>= fun d =>
        run E S relative shift steps tc (shift N d.work).1 { d with work := (shift N d.work).2 } >>= fun r =>
        .ok ({ previous := t0, time := tc, data := d } :: r)) = _ from h)
    obtain ⟨log', h2, h⟩ := Outcome.bind_eq_ok.mp h
    have e := ok_inj h
    subst e
    obtain ⟨cur, prev, e1, e2, e3⟩ := loadStep_increment hcs hm hds hd hl hcov hpost
      (hz _ (List.mem_cons_self ..)) h1
    rw [h0] at e2
    injection e2 with e2
    rw [e2, ite_self] at e3
    have key : d.value (E.C.x (l * 3)) (E.C.x (l * 3 + 1)) (E.C.x (l * 3 + 2)) tc =
        some (s1.vecs .u (l * 3 + k)) := by
      rw [e1, e3]; congr 1; ring
    obtain ⟨i1, i2⟩ := ih (fun p hp => hz p (List.mem_cons_of_mem _ hp)) tc _ _ log' h2 key
    refine ⟨by simp [i1], ?_⟩
    intro r hr
    rcases List.mem_cons.mp hr with rfl | hr
    · exact key
    · exact i2 r hr

/-- **C73**, velocities and positions: at the end of every load step the velocity of every component,
free or prescribed, is the change of its displacement over the length of the load step; and if NOX
evaluated the residual last at the vector it returns, every position is reference position plus
displacement. -/
theorem C73_velocity_and_position (E : QuasiStatic.Env) (S : Materials σ ω) (ds : List Definition)
    (hcs : makeConditions ds = .ok E.cs) (N : σ) (relative : Bool) (nox : (Nat → ℝ) → Option Solve)
    (tp tc : ℝ) (s s' : Data ω) (h : loadStep E S N relative nox tp tc s = .ok s') :
    tc ≠ tp ∧ (∀ i, s'.vecs .v i = (s'.vecs .u i - s.vecs .u i) / (tc - tp)) ∧
    ((∀ g sol, nox g = some sol → sol.evaluated.getLast? = some sol.final) →
      ∀ i, s'.vecs .y i = E.C.x i + s'.vecs .u i) := by
  obtain ⟨g, sol, w1, _, a2, a3, a4, a5, a6, a7⟩ := loadStep_ok hcs h
  obtain ⟨hbd, _, hco, _⟩ := makeConditions_ok hcs
  have hne : tc ≠ tp := fun e => a3 (by rw [e, sub_self])
  refine ⟨hne, ?_, fun hl => a7 (hl g sol a2)⟩
  intro i
  have hr := boundary_rate hne ds (by rw [← hbd]; exact hco) _ w1 (by rw [← hbd]; exact a4) (by
    intro j
    rw [setVec_self, setVec_ne _ _ (by decide), setVec_self, zero_div]) i
  rw [a6, a5, hr]
  ring

/-! ## An instance -/

/-- NOX accepting its initial guess. -/
def content (g : Nat → ℝ) : Option Solve := some { evaluated := [g], final := g }

theorem content_holds (i : Nat) : HoldsZeros content i := by
  intro g sol h hg
  unfold content at h
  injection h with h
  rw [← h]
  exact hg

/-- No force. -/
noncomputable def noForce : Materials Unit Unit where
  blocks := fun _ _ _ _ => .ok ((), [])

theorem pulled_zeroed (f : Nat → ℝ) : QuasiStatic.zeroed QuasiStatic.pulledEnv f =
    .ok fun i => ([0, f 1, f 2] : List ℝ).getD i 0 := rfl

/-- A load step of the pulled node. -/
theorem pulled_step (relative : Bool) (tp tc : ℝ) (hne : tp ≠ tc) (s : Data Unit) :
    ∃ d, loadStep QuasiStatic.pulledEnv noForce () relative content tp tc s = .ok d := by
  have hd : tc - tp ≠ 0 := sub_ne_zero.mpr (Ne.symm hne)
  have hreg : Regular QuasiStatic.pulledEnv.C QuasiStatic.pulledEnv.cs.boundary := by
    intro c hc
    simp only [QuasiStatic.pulledEnv, List.mem_cons, List.not_mem_nil, or_false] at hc
    rcases hc with rfl | rfl <;>
      exact ⟨⟨[0], rfl⟩, fun _ _ _ _ => rfl, fun p q h => by simp [obj] at h⟩
  obtain ⟨w1, h1⟩ := applyAll_defined hreg tc tp
    (setVec (setVec s.vecs .deltaU fun _ => 0) .v fun _ => 0)
  have hp : ∃ w, prepared QuasiStatic.pulledEnv tp tc s.vecs = .ok w := by
    unfold prepared
    have h1' : applyBoundary QuasiStatic.pulledEnv.C QuasiStatic.pulledEnv.cs.boundary tc tp
      (setVec (setVec s.vecs .deltaU fun _ => 0) .v fun _ => 0) = .ok w1 := h1
    rw [h1']
    exact ⟨_, rfl⟩
  obtain ⟨w, hw⟩ := hp
  have he : ∀ s1 : Data Unit, ∃ s2,
      toleranceEvaluation QuasiStatic.pulledEnv noForce () relative (tc - tp) s1 = .ok s2 := by
    intro s1
    unfold toleranceEvaluation noForce
    cases relative
    · exact ⟨_, rfl⟩
    · exact ⟨_, rfl⟩
  obtain ⟨s2, hs2⟩ := he { s with vecs := w }
  have hm : ∀ x v, ∃ w', moved QuasiStatic.pulledEnv (tc - tp) x v s2.vecs = .ok w' := by
    intro x v; unfold moved; rw [if_neg hd]; exact ⟨_, rfl⟩
  have hr : ∀ x v, ∃ p, residual QuasiStatic.pulledEnv noForce () (tc - tp) v s2 x = .ok p := by
    intro x v
    obtain ⟨w', hw'⟩ := hm v x
    unfold residual
    rw [hw']
    simp only [Outcome.ok_bind, noForce]
    rw [pulled_zeroed]
    exact ⟨_, rfl⟩
  unfold loadStep initialGuess
  rw [pulled_zeroed, hw]
  simp only [Outcome.ok_bind]
  rw [hs2]
  simp only [Outcome.ok_bind, content, residuals]
  obtain ⟨p, hp⟩ := hr (fun i => ([0, s.vecs .v 1 * (tc - tp), s.vecs .v 2 * (tc - tp)] : List ℝ).getD i 0) (w .v)
  rw [hp]
  simp only [Outcome.ok_bind]
  unfold concluded
  rw [if_neg hd]
  exact ⟨_, rfl⟩

/-- Two load steps of the pulled node, with the hypotheses of C73. -/
example : ∃ log, run QuasiStatic.pulledEnv noForce true (fun _ _ => ((), ())) [(1, content), (3, content)]
      0 () still = .ok log ∧ log.length = 2 ∧
    ∀ r ∈ log, some (2 * r.time) = some (r.data.vecs .u 0) := by
  obtain ⟨d1, h1⟩ := pulled_step true 0 1 (by norm_num) still
  obtain ⟨d2, h2⟩ := pulled_step true 1 3 (by norm_num) { d1 with work := () }
  have h : run QuasiStatic.pulledEnv noForce true (fun _ _ => ((), ())) [(1, content), (3, content)]
      0 () still = .ok [⟨0, 1, d1⟩, ⟨1, 3, d2⟩] := by
    simp only [run]
    rw [h1]
    simp only [Outcome.ok_bind]
    rw [h2]
    rfl
  refine ⟨_, h, rfl, ?_⟩
  exact (C73_follows QuasiStatic.pulledEnv noForce [QuasiStatic.pullX] QuasiStatic.pulled_conditions rfl
    [] [] QuasiStatic.pullX rfl rfl 0 0 0 rfl ⟨rfl, [0], rfl, by simp⟩ (by simp) true _
    [(1, content), (3, content)] (by
      intro p hp
      simp only [List.mem_cons, List.not_mem_nil, or_false] at hp
      rcases hp with rfl | rfl <;> exact content_holds _) 0 () still _ h (by
      show some (2 * (0 : ℝ)) = some 0
      norm_num)).2

end Verif.Nox
