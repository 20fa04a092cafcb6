import Verif.QuasiStatic.Demo
import Verif.BC.Props
import Verif.Explicit.Lemmas

/-!
# Quasi-static load stepping: one attempt
-/

namespace Verif.QuasiStatic

open Verif Verif.BC Verif.Explicit

variable {σ ω : Type} {P : Params} {E : Env} {S : Solver σ ω}

/-! ## Constrained entries -/

theorem makeConditions_coords {ds : List Definition} {cs : Conditions}
    (h : makeConditions ds = .ok cs) : CoordsOk cs.boundary := by
  obtain ⟨hb, _, hc, _⟩ := makeConditions_ok h
  intro c hcb q hq
  have hlt := hc c hcb
  rw [hb] at hcb
  obtain ⟨d, _, hd⟩ := List.mem_flatMap.mp hcb
  unfold boundaryOf at hd
  cases ht : d.type <;> rw [ht] at hd <;> simp only [List.mem_cons, List.not_mem_nil, or_false] at hd
  case prescribedDisplacement | prescribedFluidPressure | prescribedTemperature =>
    rcases hd with rfl | rfl <;>
    · have hq' : unknownOf d.type = some q := hq
      rw [ht] at hq'
      simp only [unknownOf, Option.some.injEq] at hq'
      subst hq'
      exact hlt
  case thermalFlux =>
    subst hd
    have hq' : unknownOf d.type = some q := hq
    rw [ht] at hq'
    simp only [unknownOf, Option.some.injEq] at hq'
    subst hq'
    exact hlt

theorem insertZeros_sets {m : Dof.Manager} {gids : List Nat} {sets : NodeSets} :
    ∀ (cs : List Condition) (v v' : List ℝ), insertZeros m gids sets cs v = .ok v' →
    SetsFound m sets cs := by
  intro cs
  induction cs with
  | nil => intro v v' _ c hc; exact absurd hc (by simp)
  | cons c cs ih =>
    intro v v' h c' hc' q hq ha
    obtain ⟨v1, h1, h2⟩ := foldlM_cons_ok.mp h
    rcases List.mem_cons.mp hc' with rfl | hc'
    · unfold zeroCondition at h1
      rw [constrains_some.mpr ⟨q, hq, ha, rfl⟩] at h1
      simp only at h1
      cases hs : sets c'.nodeSet with
      | none => rw [hs] at h1; exact absurd h1 (by simp)
      | some nodes => exact ⟨nodes, rfl⟩
    · exact ih v1 v' h2 c' hc' q hq ha

/-- Entries of a vector after zeros have been inserted: zero at constrained degrees of freedom,
unchanged at the others. -/
theorem zeroed_exact {ds : List Definition} (hcs : makeConditions ds = .ok E.cs)
    (hm : E.dofs = dispOnly) {f r : Nat → ℝ} (h : zeroed E f = .ok r) {g l k : Nat}
    (hl : lid E.C.owned g = some l) (hk : k < 3) :
    (Constrained E.dofs E.C.sets E.cs.boundary g .displacement k → r (l * 3 + k) = 0) ∧
    (¬ Constrained E.dofs E.C.sets E.cs.boundary g .displacement k →
      r (l * 3 + k) = f (l * 3 + k)) := by
  unfold zeroed at h
  obtain ⟨v', hv', h⟩ := Outcome.bind_eq_ok.mp h
  have e := ok_inj h
  have hlt : l * 3 + k < E.length := by
    obtain ⟨h1, h2⟩ := lid_some.mp hl
    have := List.idxOf_lt_length_of_mem h1
    unfold Env.length
    omega
  have ht : E.dofs.total = 3 := by rw [hm]; rfl
  obtain ⟨v2, e2, _, hx⟩ := insert_zeros_exact E.dofs (by rw [hm]; exact dispOnly_good) E.C.owned
    E.C.sets E.cs.boundary (makeConditions_coords hcs) (insertZeros_sets _ _ _ hv')
    ((List.range E.length).map f) (by rw [List.length_map, List.length_range, ht]; rfl)
  rw [hv'] at e2
  have e2 := ok_inj e2
  subst e2
  obtain ⟨h1, h2⟩ := hx g l .displacement k hl (by rw [hm]; rfl) (by rw [hm]; exact hk)
  have hrow : Dof.row E.dofs l .displacement k = l * 3 + k := by
    rw [hm]
    show 3 * l + 0 + k = l * 3 + k
    omega
  rw [hrow] at h1 h2
  subst e
  simp only [List.getD_eq_getElem?_getD]
  refine ⟨fun hc => by rw [h1 hc]; rfl, fun hc => ?_⟩
  rw [h2 hc, List.getElem?_map, List.getElem?_range hlt]
  rfl

/-! ## The norm bounds every entry -/

theorem norm2_ge (r : Nat → ℝ) (n i : Nat) (h : i < n) : |r i| ≤ norm2 n r := by
  unfold norm2
  apply Real.le_sqrt_of_sq_le
  rw [sq_abs]
  exact Finset.single_le_sum (f := fun i => r i ^ 2) (fun j _ => sq_nonneg _) (Finset.mem_range.mpr h)

theorem residualNorm_ge (E : Env) (r : Nat → ℝ) (i : Nat) (h : i < E.length) :
    21 * |r i| ≤ residualNorm E r := by
  unfold residualNorm
  have h1 := norm2_ge r E.length i h
  have h2 := normInf_ge r E.length i h
  linarith

/-! ## The nonlinear iteration -/

theorem place_ok {dt : ℝ} {w w' : Vecs} (h : place E dt w = .ok w') :
    dt ≠ 0 ∧ (∀ i, w' .y i = E.C.x i + w .u i + w .deltaU i) ∧ (∀ i, w' .v i = w .deltaU i / dt) ∧
      ∀ t, t ≠ .y → t ≠ .v → w' t = w t := by
  unfold place at h
  split at h
  · exact absurd h (by simp)
  · rename_i hd
    have e := ok_inj h
    subst e
    refine ⟨hd, fun i => ?_, fun i => ?_, fun t h1 h2 => ?_⟩
    · rw [setVec_ne _ _ (by decide)]; simp [setVec]
    · simp [setVec]
    · rw [setVec_ne _ _ h2, setVec_ne _ _ h1]

/-- What holds at the beginning and end of every iteration: `u` and the external force are those
given, positions and velocities belong to the increment, the residual is that of the current
vectors, the norm is its norm unless the linear solver failed; and the increment at the entries
`K` is still the one given. -/
structure Sound (E : Env) (S : Solver σ ω) (N : σ) (dt : ℝ) (w0 : Vecs) (K : Nat → Prop)
    (t : Iter ω) : Prop where
  u : t.vecs .u = w0 .u
  ext : t.vecs .externalForce = w0 .externalForce
  y : ∀ i, t.vecs .y i = E.C.x i + t.vecs .u i + t.vecs .deltaU i
  v : ∀ i, t.vecs .v i = t.vecs .deltaU i / dt
  held : ∀ i, K i → t.vecs .deltaU i = w0 .deltaU i
  bal : ∃ wk b, balance E S N wk dt t.vecs = .ok b ∧ t.bal.force = b.force ∧
    t.bal.residual = b.residual ∧
    (t.norm = residualNorm E b.residual ∧ t.bal.work = b.work ∨ t.norm = 10 ^ 50)

theorem applyIncrement_sound {N : σ} {dt : ℝ} {w0 : Vecs} {K : Nat → Prop}
    (hK : ∀ f r, zeroed E f = .ok r → ∀ i, K i → r i = 0) {t t' : Iter ω} {work : ω}
    {lhs : Nat → ℝ} (ht : Sound E S N dt w0 K t)
    (h : applyIncrement P E S N dt t work lhs = .ok t') : Sound E S N dt w0 K t' := by
  unfold applyIncrement at h
  obtain ⟨l, hl, h⟩ := Outcome.bind_eq_ok.mp h
  obtain ⟨a, ha, h⟩ := Outcome.bind_eq_ok.mp h
  obtain ⟨w, hw, h⟩ := Outcome.bind_eq_ok.mp h
  obtain ⟨b, hb, h⟩ := Outcome.bind_eq_ok.mp h
  have e := ok_inj h
  subst e
  obtain ⟨hd, h1, h2, h3⟩ := place_ok hw
  have e1 : w .u = t.vecs .u := by rw [h3 _ (by decide) (by decide), setVec_ne _ _ (by decide)]
  have e2 : w .deltaU = fun i => t.vecs .deltaU i + a.2 * l i := by
    rw [h3 _ (by decide) (by decide)]; funext i; simp [setVec]
  refine ⟨?_, ?_, ?_, ?_, ?_, a.1, b, hb, rfl, rfl, .inl ⟨rfl, rfl⟩⟩
  · show w .u = _; rw [e1, ht.u]
  · show w .externalForce = _
    rw [h3 _ (by decide) (by decide), setVec_ne _ _ (by decide), ht.ext]
  · intro i
    show w .y i = _ + w .u i + w .deltaU i
    rw [h1, h3 .u (by decide) (by decide), h3 .deltaU (by decide) (by decide)]
  · intro i
    show w .v i = w .deltaU i / dt
    rw [h2, h3 .deltaU (by decide) (by decide)]
  · intro i hi
    show w .deltaU i = _
    rw [e2]
    simp only
    rw [hK lhs l hl i hi, mul_zero, add_zero, ht.held i hi]

theorem newton_sound {N : σ} {dt : ℝ} {w0 : Vecs} {K : Nat → Prop}
    (hK : ∀ f r, zeroed E f = .ok r → ∀ i, K i → r i = 0) {pr : Nat → ℝ} {step : Nat} {tol : ℝ} :
    ∀ (fuel it : Nat) (t t' : Iter ω), Sound E S N dt w0 K t →
    newton P E S N pr dt step tol fuel it t = .ok t' → Sound E S N dt w0 K t' := by
  intro fuel
  induction fuel with
  | zero => intro it t t' ht h; rw [← ok_inj h]; exact ht
  | succ fuel ih =>
    intro it t t' ht h
    unfold newton at h
    split at h
    · obtain ⟨p, _, h⟩ := Outcome.bind_eq_ok.mp h
      cases hp : p.2 with
      | none =>
        rw [hp] at h
        have e := ok_inj h
        subst e
        obtain ⟨wk, b, h1, h2, h3, _⟩ := ht.bal
        exact ⟨ht.u, ht.ext, ht.y, ht.v, ht.held, wk, b, h1, h2, h3, .inr rfl⟩
      | some lhs =>
        rw [hp] at h
        obtain ⟨t1, h1, h⟩ := Outcome.bind_eq_ok.mp h
        exact ih (it + 1) t1 t' (applyIncrement_sound hK ht h1) h
    · rw [← ok_inj h]; exact ht

/-- What an attempt does. -/
theorem attempt_ok {K : Nat → Prop} (hK : ∀ f r, zeroed E f = .ok r → ∀ i, K i → r i = 0) {N : σ}
    {work : ω} {pr : Nat → ℝ} {vecs : Vecs} {step : Nat} {tp tc : ℝ} {a : Attempt ω}
    (h : attempt P E S N work pr vecs step tp tc = .ok a) :
    ∃ w1 w2, applyBoundary E.C E.cs.boundary tc tp (setVec vecs .deltaU fun _ => 0) = .ok w1 ∧
      applyForces E.C E.cs.force tc tp w1 = .ok w2 ∧ tc - tp ≠ 0 ∧
      Sound E S N (tc - tp) w2 K a.iter := by
  unfold attempt at h
  obtain ⟨w1, h1, h⟩ := Outcome.bind_eq_ok.mp h
  obtain ⟨w2, h2, h⟩ := Outcome.bind_eq_ok.mp h
  obtain ⟨w3, h3, h⟩ := Outcome.bind_eq_ok.mp h
  obtain ⟨b, hb, h⟩ := Outcome.bind_eq_ok.mp h
  obtain ⟨m, _, h⟩ := Outcome.bind_eq_ok.mp h
  obtain ⟨t, ht, h⟩ := Outcome.bind_eq_ok.mp h
  have e := ok_inj h
  subst e
  obtain ⟨hd, p1, p2, p3⟩ := place_ok h3
  refine ⟨w1, w2, h1, h2, hd, newton_sound hK _ _ _ t ?_ ht⟩
  refine ⟨p3 _ (by decide) (by decide), p3 _ (by decide) (by decide), ?_, ?_, ?_, work, b, hb, rfl, rfl,
    .inl ⟨rfl, rfl⟩⟩
  · intro i
    show w3 .y i = _ + w3 .u i + w3 .deltaU i
    rw [p1, p3 .u (by decide) (by decide), p3 .deltaU (by decide) (by decide)]
  · intro i
    show w3 .v i = w3 .deltaU i / _
    rw [p2, p3 .deltaU (by decide) (by decide)]
  · intro i _
    show w3 .deltaU i = _
    rw [p3 .deltaU (by decide) (by decide)]

theorem boundary_keeps_u {ds : List Definition} (hcs : makeConditions ds = .ok E.cs) {tc tp : ℝ}
    {s s' : Vecs} (h : applyBoundary E.C E.cs.boundary tc tp s = .ok s') : s' .u = s .u := by
  obtain ⟨hbd, _, hco, _⟩ := makeConditions_ok hcs
  exact (applyAll_ok E.cs.boundary (fun c hc =>
    (boundary_target (ds := ds) (by rw [← hbd]; exact hc)).1) hco _ _ h).1

theorem forces_keep {ds : List Definition} (hcs : makeConditions ds = .ok E.cs) {tc tp : ℝ}
    {s s' : Vecs} (h : applyForces E.C E.cs.force tc tp s = .ok s') {t : Target}
    (ht : t ≠ .externalForce) : s' t = s t :=
  (body_force_last_wins_partial E.C ds E.cs hcs _ _ _ _ h).2 t ht

theorem attempt_keeps_u {ds : List Definition} (hcs : makeConditions ds = .ok E.cs) {N : σ}
    {work : ω} {pr : Nat → ℝ} {vecs : Vecs} {step : Nat} {tp tc : ℝ} {a : Attempt ω}
    (h : attempt P E S N work pr vecs step tp tc = .ok a) : a.iter.vecs .u = vecs .u := by
  obtain ⟨w1, w2, h1, h2, _, hs⟩ := attempt_ok (K := fun _ => False) (fun _ _ _ _ h => h.elim) h
  rw [hs.u, forces_keep hcs h2 (by decide), boundary_keeps_u hcs h1, setVec_ne _ _ (by decide)]

/-! ## The increment at a prescribed displacement -/

theorem hits_boundary_deltaU {C : Ctx} {d : Definition} {g k l : Nat} (hl : lid C.owned g = some l)
    (hk : k < 3) {c : Condition} (hc : c ∈ boundaryOf d) {l' : Nat}
    (h : Hits C c .deltaU (l * 3 + k) l') :
    d.type = .prescribedDisplacement ∧ Covers C.sets d g k := by
  unfold boundaryOf at hc
  cases ht : d.type <;> rw [ht] at hc <;> simp only [List.mem_cons, List.not_mem_nil, or_false] at hc
  case prescribedDisplacement =>
    rcases hc with rfl | rfl
    · obtain ⟨_, hi, nodes, g', hs, hg', hl'⟩ := h
      have hi' : l * 3 + k = l' * 3 + (d.coord : Nat) := hi
      have hcoord := d.coord.isLt
      have e1 : l = l' := by omega
      subst e1
      have : g' = g := lid_inj hl' hl
      subst this
      exact ⟨rfl, by omega, nodes, hs, hg'⟩
    · exact absurd h.1 (by simp [obj])
  case prescribedFluidPressure => rcases hc with rfl | rfl <;> exact absurd h.1 (by simp [obj])
  case prescribedTemperature => rcases hc with rfl | rfl <;> exact absurd h.1 (by simp [obj])
  case thermalFlux => subst hc; exact absurd h.1 (by simp [obj])

/-- The increment a prescribed displacement writes. -/
theorem increment_value {C : Ctx} {d : Definition} (hd : d.type = .prescribedDisplacement)
    {u : Nat → ℝ} {tc tp r : ℝ} {l : Nat}
    (h : nodeValue C (obj d .deltaU (.increment 1 0 false)) u tc tp l = .ok r) :
    ∃ cur prev,
      d.value (C.x (l * 3)) (C.x (l * 3 + 1)) (C.x (l * 3 + 2)) tc = some cur ∧
      d.value (C.x (l * 3)) (C.x (l * 3 + 1)) (C.x (l * 3 + 2)) tp = some prev ∧
      r = cur - (if cur - prev = 0 then u (l * 3 + d.coord) else prev) := by
  unfold nodeValue at h
  simp only [obj] at h
  obtain ⟨p, hp, h⟩ := Outcome.bind_eq_ok.mp h
  unfold evaluateParser at hp
  obtain ⟨prev, h1, hp⟩ := Outcome.bind_eq_ok.mp hp
  obtain ⟨cur, h2, hp⟩ := Outcome.bind_eq_ok.mp hp
  have e := ok_inj hp
  unfold incrementValue at h
  have ht : previousTime false tp = tp := rfl
  rw [ht] at h h1
  split at h
  · exact absurd h (by simp)
  · refine ⟨cur, prev, callFunction_ok h2, callFunction_ok h1, ?_⟩
    have e2 := ok_inj h
    rw [← e2, ← e]
    simp only [hd, true_and]
    ring

/-- After an attempt the increment at a prescribed displacement is the change of the prescribed
function, or leads onto it if the function did not change. -/
theorem attempt_increment {ds : List Definition} (hcs : makeConditions ds = .ok E.cs)
    (hm : E.dofs = dispOnly) {pre post : List Definition} {d : Definition}
    (hds : ds = pre ++ d :: post) (hd : d.type = .prescribedDisplacement) {g l k : Nat}
    (hl : lid E.C.owned g = some l) (hcov : Covers E.C.sets d g k)
    (hpost : ∀ d' ∈ post, d'.type = .prescribedDisplacement → ¬ Covers E.C.sets d' g k) {N : σ}
    {work : ω} {pr : Nat → ℝ} {vecs : Vecs} {step : Nat} {tp tc : ℝ} {a : Attempt ω}
    (h : attempt P E S N work pr vecs step tp tc = .ok a) :
    ∃ cur prev,
      d.value (E.C.x (l * 3)) (E.C.x (l * 3 + 1)) (E.C.x (l * 3 + 2)) tc = some cur ∧
      d.value (E.C.x (l * 3)) (E.C.x (l * 3 + 1)) (E.C.x (l * 3 + 2)) tp = some prev ∧
      a.iter.vecs .deltaU (l * 3 + k) = cur - (if cur - prev = 0 then vecs .u (l * 3 + k) else prev) := by
  have hk : k < 3 := by rw [← hcov.1]; exact d.coord.isLt
  obtain ⟨hbd, _, hco, _⟩ := makeConditions_ok hcs
  have hsplit : E.cs.boundary = pre.flatMap boundaryOf ++ obj d .deltaU (.increment 1 0 false) ::
      (obj d .v (.increment 0 1 false) :: post.flatMap boundaryOf) := by
    rw [hbd, hds, List.flatMap_append, List.flatMap_cons]
    have : boundaryOf d = [obj d .deltaU (.increment 1 0 false), obj d .v (.increment 0 1 false)] := by
      unfold boundaryOf; rw [hd]
    rw [this]; simp
  have hcon : Constrained E.dofs E.C.sets E.cs.boundary g .displacement k := by
    refine ⟨by rw [hm]; rfl, obj d .deltaU (.increment 1 0 false), by rw [hsplit]; simp, ?_, hcov.1, hcov.2⟩
    show unknownOf d.type = _
    rw [hd]; rfl
  obtain ⟨w1, w2, h1, h2, hne, hs⟩ := attempt_ok (K := fun i => i = l * 3 + k)
    (fun f r hz i hi => by rw [hi]; exact (zeroed_exact hcs hm hz hl hk).1 hcon) h
  have hne' : tc ≠ tp := fun e => hne (by rw [e, sub_self])
  obtain ⟨_, _, a3⟩ := applyAll_ok E.cs.boundary (fun c hc =>
    (boundary_target (ds := ds) (by rw [← hbd]; exact hc)).1) hco _ _ h1
  have hval := a3 _ _ _ hsplit (decide_eq_false hne') .deltaU (l * 3 + k) l
    ⟨rfl, by
      show l * 3 + k = l * 3 + (d.coord : Nat)
      rw [hcov.1], by
      obtain ⟨_, nodes, hn, hg⟩ := hcov
      exact ⟨nodes, g, hn, hg, hl⟩⟩ (by
      intro c' hc' l' hhit
      rcases List.mem_cons.mp hc' with rfl | hc'
      · exact absurd hhit.1 (by simp [obj])
      · obtain ⟨d', hd', hc''⟩ := List.mem_flatMap.mp hc'
        obtain ⟨t1, t2⟩ := hits_boundary_deltaU hl hk hc'' hhit
        exact hpost d' hd' t1 t2)
  rw [setVec_ne _ _ (by decide)] at hval
  obtain ⟨cur, prev, e1, e2, e3⟩ := increment_value hd hval
  refine ⟨cur, prev, e1, e2, ?_⟩
  rw [hs.held _ rfl, forces_keep hcs h2 (by decide), e3, hcov.1]

/-! ## The loop -/

/-- What a pass leaves for the next attempt: as the loop variables hold it, or, after giving up,
with the old time of the failed attempt. -/
def Next.accepted (P : Params) : Next σ ω → Accepted σ
  | .again s => s.accepted P
  | .finished s => s.accepted P
  | .gaveUp s => ⟨s.timePrevious, s.vecs .u, s.predictor, s.N⟩

/-- A pass either completes a load step, adding the record of an accepted attempt, or leaves
everything that was accepted as it was. -/
theorem pass_accepted {ds : List Definition} (hcs : makeConditions ds = .ok E.cs) {tf : ℝ}
    {s : State σ ω} {x : Next σ ω} (h : pass P E S tf s = .ok x) :
    (x.state.log = s.log ∧ x.state.step = s.step ∧ x.accepted P = s.accepted P) ∨
    ∃ s' r, x = .again s' ∧ s'.log = s.log ++ [r] ∧ s'.step = s.step + 1 ∧
      attempt P E S s.N s.work s.predictor s.vecs s.step (oldTime P s) r.time = .ok r.attempt ∧
      accepts r.attempt = true ∧ r.previous = oldTime P s ∧
      (∀ i, r.vecs .u i = s.vecs .u i + r.attempt.iter.vecs .deltaU i) ∧
      (∀ t, t ≠ .u → r.vecs t = r.attempt.iter.vecs t) ∧
      r.work = r.attempt.iter.bal.work ∧
      s'.accepted P = { time := r.time, u := r.vecs .u, predictor := r.vecs .v,
                        N := (S.shift s.N r.work).1 } := by
  rcases pass_cases h with ⟨_, rfl⟩ | ⟨tc, a, l, e, ha, hacc, hr, rfl⟩ | ⟨tc, a, e, ha, hrej, rfl⟩
  · exact .inl ⟨rfl, rfl, rfl⟩
  · refine .inr ⟨_, _, rfl, rfl, rfl, ha, hacc, rfl, ?_, ?_, rfl, ?_⟩
    · intro i
      show a.iter.vecs .u i + a.iter.vecs .deltaU i = _
      rw [attempt_keeps_u hcs ha]
    · intro t ht
      exact setVec_ne _ _ ht
    · unfold State.accepted
      rw [commit_oldTime]
      rfl
  · refine .inl ?_
    have hu := attempt_keeps_u hcs ha
    rcases reject_cases P s (oldTime P s) tc a with
      ⟨s', h1, h2, h3, h4, h5, h6, h7, h8, _⟩ |
      ⟨A, s', hA, _, _, h1, h2, h3, h4, h5, h6, h7, h8, _⟩
    · rw [h1]
      refine ⟨h8, h3, ?_⟩
      show (⟨s'.timePrevious, s'.vecs .u, s'.predictor, s'.N⟩ : Accepted σ) = _
      rw [h4, h5, h6, h7, hu]
      rfl
    · rw [h1]
      refine ⟨h8, h3, ?_⟩
      show (⟨oldTime P s', s'.vecs .u, s'.predictor, s'.N⟩ : Accepted σ) = _
      rw [h4, h5, h6, h7, hu]
      rfl

end Verif.QuasiStatic
