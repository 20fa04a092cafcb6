import Verif.Explicit.Lemmas

/-!
# Explicit time integration: properties C32, C36, C37, C38 (general form), C39
-/

namespace Verif.Explicit

open Verif Verif.BC

variable {σ : Type}

/-! ## When runs are defined -/

/-- With regular conditions, non-zero densities and an evaluation that does not fail, the initial
evaluation and any number of steps complete. -/
theorem explicit_defined (P : Params) (C : Ctx) (cs : Conditions) (eval : Eval σ)
    (hb : Regular C cs.boundary) (hf : Regular C cs.force)
    (hd : ∀ i < P.length, P.density (i / 3) ≠ 0)
    (he : ∀ b n w, ∃ b' f, eval b n w = .ok (b', f)) (vecs : Vecs) (b : σ) :
    (∃ s0, initialStep P C cs eval vecs b = .ok s0) ∧
    ∀ s0 n, ∃ s, run P C cs eval s0 n = .ok s := by
  have h0 : ∃ s0, initialStep P C cs eval vecs b = .ok s0 := by
    obtain ⟨b', f, h1⟩ := he b 0 vecs
    obtain ⟨w1, h2⟩ := applyAll_defined hb P.timeInitial P.timeInitial vecs
    obtain ⟨w2, h3⟩ := applyAll_defined hf P.timeInitial P.timeInitial (clearForce w1)
    obtain ⟨a, h4⟩ := acceleration_defined hd f (w2 .externalForce)
    exact ⟨_, Outcome.bind_eq_ok.mpr ⟨_, h1, Outcome.bind_eq_ok.mpr ⟨_, h2,
      Outcome.bind_eq_ok.mpr ⟨_, h3, Outcome.bind_eq_ok.mpr ⟨_, h4, rfl⟩⟩⟩⟩⟩
  refine ⟨h0, fun s0 n => ?_⟩
  induction n with
  | zero => exact ⟨s0, rfl⟩
  | succ n ih =>
    obtain ⟨s, hs⟩ := ih
    obtain ⟨w2, h2⟩ := applyAll_defined hb (P.timeInitial + ((n + 1 : ℕ) : ℝ) * P.dt) s.time
      (setVec s.vecs .v (axpy (P.dt / 2) s.a (s.vecs .v)))
    obtain ⟨w3, h3⟩ := applyAll_defined hf (P.timeInitial + ((n + 1 : ℕ) : ℝ) * P.dt) s.time
      (clearForce w2)
    have hp : ∃ w, predictor P C cs s (P.timeInitial + ((n + 1 : ℕ) : ℝ) * P.dt) = .ok w :=
      ⟨_, Outcome.bind_eq_ok.mpr ⟨_, h2, Outcome.bind_eq_ok.mpr ⟨_, h3, rfl⟩⟩⟩
    obtain ⟨w, hw⟩ := hp
    obtain ⟨b', f, h1⟩ := he s.blocks (n + 1) w
    obtain ⟨a, h4⟩ := acceleration_defined hd f (w .externalForce)
    exact ⟨_, Outcome.bind_eq_ok.mpr ⟨s, hs, Outcome.bind_eq_ok.mpr ⟨_, hw,
      Outcome.bind_eq_ok.mpr ⟨_, h1, Outcome.bind_eq_ok.mpr ⟨_, h4, rfl⟩⟩⟩⟩⟩

/-- One node, moved in the first direction by its prescribed displacement `2 t`. -/
def pulled : Definition :=
  { type := .prescribedDisplacement, nodeSet := "S", coord := 0, value := fun _ _ _ t => some (2 * t) }

/-- The demonstration mesh. -/
def oneNode : Ctx := { owned := [0], sets := fun s => if s = "S" then some [0] else none, x := fun _ => 0 }

/-- Unit density, step 1/2, from 0 to 3. -/
noncomputable def demoParams : Params :=
  { dt := 1 / 2, timeInitial := 0, timeFinal := 3, density := fun _ => 1, length := 3 }

/-- A spring that ties every coordinate to the origin. -/
def spring : Eval Unit := fun _ _ w => .ok ((), fun i => - w .y i)

theorem demo_run (vecs : Vecs) : ∃ cs s0, makeConditions [pulled] = .ok cs ∧
    initialStep demoParams oneNode cs spring vecs () = .ok s0 ∧
    ∀ n, ∃ s, run demoParams oneNode cs spring s0 n = .ok s := by
  have hreg : Regular oneNode [obj pulled .deltaU (.increment 1 0 false), obj pulled .v (.increment 0 1 false)] := by
    intro c hc
    simp only [List.mem_cons, List.not_mem_nil, or_false] at hc
    rcases hc with rfl | rfl <;>
      exact ⟨⟨[0], rfl⟩, fun _ _ _ _ => rfl, fun p q h => by simp [obj] at h⟩
  obtain ⟨⟨s0, h1⟩, h2⟩ := explicit_defined demoParams oneNode
    { initial := [], boundary := [obj pulled .deltaU (.increment 1 0 false), obj pulled .v (.increment 0 1 false)], force := [] }
    spring hreg (by intro c hc; simp at hc)
    (fun _ _ => by simp [demoParams]) (fun _ _ w => ⟨(), _, rfl⟩) vecs ()
  exact ⟨_, s0, rfl, h1, h2 s0⟩

theorem demo_free (vecs : Vecs) : ∃ s0, makeConditions [] = .ok {} ∧
    initialStep demoParams oneNode {} spring vecs () = .ok s0 ∧
    ∀ s0 n, ∃ s, run demoParams oneNode {} spring s0 n = .ok s := by
  obtain ⟨⟨s0, h1⟩, h2⟩ := explicit_defined demoParams oneNode {}
    spring (by intro c hc; simp at hc) (by intro c hc; simp at hc)
    (fun _ _ => by simp [demoParams]) (fun _ _ w => ⟨(), _, rfl⟩) vecs ()
  exact ⟨s0, rfl, h1, h2⟩

/-- Regular conditions, non-zero density and a total evaluation: `explicit_defined` applies. -/
example : ∃ cs s0, makeConditions [pulled] = .ok cs ∧
    initialStep demoParams oneNode cs spring (fun _ _ => 0) () = .ok s0 ∧
    ∀ n, ∃ s, run demoParams oneNode cs spring s0 n = .ok s := demo_run _

/-! ## C36: the time span -/

/-- C36: with a positive step the integrator stops not later than the final time and within one
step of it; if the final time does not lie after the initial time it makes no step beyond it. -/
theorem C36_covers (P : Params) (C : Ctx) (cs : Conditions) (eval : Eval σ) (vecs : Vecs) (b : σ)
    (s : State σ) (hdt : 0 < P.dt) (h : executeExplicit P C cs eval vecs b = .ok s) :
    (P.timeInitial ≤ P.timeFinal → s.time ≤ P.timeFinal ∧ P.timeFinal < s.time + P.dt) ∧
    (P.timeFinal < P.timeInitial → s.time = P.timeInitial) := by
  unfold executeExplicit at h
  obtain ⟨n, hn, h⟩ := Outcome.bind_eq_ok.mp h
  obtain ⟨s0, h0, h⟩ := Outcome.bind_eq_ok.mp h
  have ht := run_time (initialStep_ok h0).1 n s h
  unfold numSteps at hn
  split at hn
  · exact absurd hn (by simp)
  split at hn
  · exact absurd hn (by simp)
  split at hn
  · exact absurd hn (by simp)
  have e := ok_inj hn
  constructor
  · intro hle
    have hq : 0 ≤ (P.timeFinal - P.timeInitial) / P.dt :=
      div_nonneg (sub_nonneg.mpr hle) hdt.le
    have hz : (0 : ℤ) ≤ ⌊(P.timeFinal - P.timeInitial) / P.dt⌋ := Int.floor_nonneg.mpr hq
    have hc : ((n : ℕ) : ℝ) = (⌊(P.timeFinal - P.timeInitial) / P.dt⌋ : ℤ) := by
      rw [← e]
      exact_mod_cast congrArg (fun z : ℤ => (z : ℝ)) (Int.toNat_of_nonneg hz)
    have h1 := Int.floor_le ((P.timeFinal - P.timeInitial) / P.dt)
    have h2 := Int.lt_floor_add_one ((P.timeFinal - P.timeInitial) / P.dt)
    rw [← hc] at h1 h2
    rw [le_div_iff₀ hdt] at h1
    rw [div_lt_iff₀ hdt] at h2
    rw [ht]
    constructor <;> nlinarith
  · intro hlt
    have hq : (P.timeFinal - P.timeInitial) / P.dt < 0 := div_neg_of_neg_of_pos (by linarith) hdt
    have hz : ⌊(P.timeFinal - P.timeInitial) / P.dt⌋ < 0 := Int.floor_lt.mpr (by exact_mod_cast hq)
    have : n = 0 := by omega
    rw [ht, this]; simp

/-- C36: the number of steps is defined unless it reaches the largest `int`. -/
theorem C36_defined (P : Params) (hdt : 0 < P.dt) (hle : P.timeInitial ≤ P.timeFinal)
    (hfit : P.timeFinal - P.timeInitial < 2147483647 * P.dt) : ∃ n, numSteps P = .ok n := by
  have hq : 0 ≤ (P.timeFinal - P.timeInitial) / P.dt := div_nonneg (sub_nonneg.mpr hle) hdt.le
  have hz : (0 : ℤ) ≤ ⌊(P.timeFinal - P.timeInitial) / P.dt⌋ := Int.floor_nonneg.mpr hq
  have hlt : ⌊(P.timeFinal - P.timeInitial) / P.dt⌋ < 2147483647 := by
    rw [Int.floor_lt, div_lt_iff₀ hdt]
    exact_mod_cast hfit
  refine ⟨⌊(P.timeFinal - P.timeInitial) / P.dt⌋.toNat, ?_⟩
  unfold numSteps
  rw [if_neg hdt.ne', if_neg (by unfold intMax; omega), if_neg (by unfold intMax; omega)]

/-- C36: step `n` happens at the initial time plus `n` steps, so successive steps are one step apart. -/
theorem C36_step_times (P : Params) (C : Ctx) (cs : Conditions) (eval : Eval σ) (vecs : Vecs) (b : σ)
    (s0 s : State σ) (h0 : initialStep P C cs eval vecs b = .ok s0) (n : Nat)
    (h : run P C cs eval s0 n = .ok s) : s.time = P.timeInitial + n * P.dt :=
  run_time (initialStep_ok h0).1 n s h

/-- From 0 to 3 in steps of 1/2, with a moving node. -/
example : 0 < demoParams.dt ∧ demoParams.timeInitial ≤ demoParams.timeFinal ∧
    demoParams.timeFinal - demoParams.timeInitial < 2147483647 * demoParams.dt ∧
    ∃ cs s, executeExplicit demoParams oneNode cs spring (fun _ _ => 0) () = .ok s := by
  have h1 : (0 : ℝ) < demoParams.dt := by norm_num [demoParams]
  have h2 : demoParams.timeInitial ≤ demoParams.timeFinal := by norm_num [demoParams]
  have h3 : demoParams.timeFinal - demoParams.timeInitial < 2147483647 * demoParams.dt := by
    norm_num [demoParams]
  obtain ⟨cs, s0, _, h4, h5⟩ := demo_run (fun _ _ => 0)
  obtain ⟨n, hn⟩ := C36_defined demoParams h1 h2 h3
  obtain ⟨s, hs⟩ := h5 n
  exact ⟨h1, h2, h3, cs, s, Outcome.bind_eq_ok.mpr ⟨n, hn, Outcome.bind_eq_ok.mpr ⟨s0, h4, hs⟩⟩⟩

/-! ## C37: positions -/

/-- C37: after every step positions are reference positions plus displacements. -/
theorem C37_positions (P : Params) (C : Ctx) (cs : Conditions) (eval : Eval σ) (s s' : State σ)
    (n : Nat) (h : run P C cs eval s (n + 1) = .ok s') (i : Nat) :
    s'.vecs .y i = C.x i + s'.vecs .u i := by
  obtain ⟨s1, _, h2⟩ := run_succ h
  obtain ⟨w, f, hw, _, _, _, hv⟩ := advance_ok h2
  obtain ⟨w2, w3, _, _, hu, hy, _⟩ := predictor_ok hw
  rw [hv, setVec_ne _ _ (by decide), setVec_ne _ _ (by decide), hu, hy]
  ring

/-- Three steps of the demonstration. -/
example : ∃ cs s0 s, run demoParams oneNode cs spring s0 (2 + 1) = .ok s := by
  obtain ⟨cs, s0, _, _, h⟩ := demo_run (fun _ _ => 0)
  obtain ⟨s, hs⟩ := h 3
  exact ⟨cs, s0, s, hs⟩

/-! ## C32: prescribed displacements -/

/-- The displacement of a node with a prescribed displacement follows the prescribed function. -/
theorem C32_follows (P : Params) (C : Ctx) (ds : List Definition) (cs : Conditions)
    (hcs : makeConditions ds = .ok cs) (eval : Eval σ) (s : State σ) (hs : s.time = P.timeInitial)
    (pre post : List Definition) (d : Definition) (hds : ds = pre ++ d :: post)
    (hd : d.type = .prescribedDisplacement) (g l k : Nat) (hl : lid C.owned g = some l)
    (hcov : Covers C.sets d g k)
    (hpost : ∀ d' ∈ post, d'.type = .prescribedDisplacement → ¬ Covers C.sets d' g k)
    (h0 : d.value (C.x (l * 3)) (C.x (l * 3 + 1)) (C.x (l * 3 + 2)) P.timeInitial =
      some (s.vecs .u (l * 3 + k))) :
    ∀ (n : Nat) (s' : State σ), run P C cs eval s n = .ok s' →
    d.value (C.x (l * 3)) (C.x (l * 3 + 1)) (C.x (l * 3 + 2)) s'.time =
      some (s'.vecs .u (l * 3 + k)) := by
  intro n
  induction n with
  | zero => intro s' h; rw [← ok_inj h, hs]; exact h0
  | succ n ih =>
    intro s' h
    obtain ⟨s1, h1, h2⟩ := run_succ h
    have ht1 := run_time hs n s1 h1
    have ih1 := ih s1 h1
    obtain ⟨w, f, hw, _, _, ht, hv⟩ := advance_ok h2
    obtain ⟨w2, w3, hb, hf, hu, _, _⟩ := predictor_ok hw
    obtain ⟨hbd, _, hco, _⟩ := makeConditions_ok hcs
    have hk : k < 3 := by rw [← hcov.1]; exact d.coord.isLt
    -- body forces leave displacement and velocity alone
    have hfr := (body_force_last_wins_partial C ds cs hcs _ _ _ _ hf).2
    have e3u : w3 .u = w2 .u := hfr .u (by decide)
    have e3v : w3 .v = w2 .v := hfr .v (by decide)
    -- the boundary conditions
    have htgt : ∀ c ∈ cs.boundary, c.target ≠ .u := fun c hc =>
      (boundary_target (ds := ds) (by rw [← hbd]; exact hc)).1
    obtain ⟨a1, _, a3⟩ := applyAll_ok cs.boundary htgt hco _ _ hb
    rw [setVec_ne _ _ (by decide)] at a1
    have hsplit : cs.boundary = (pre.flatMap boundaryOf ++ [obj d .deltaU (.increment 1 0 false)]) ++
        obj d .v (.increment 0 1 false) :: post.flatMap boundaryOf := by
      rw [hbd, hds, List.flatMap_append, List.flatMap_cons]
      have : boundaryOf d = [obj d .deltaU (.increment 1 0 false), obj d .v (.increment 0 1 false)] := by
        unfold boundaryOf; rw [hd]
      rw [this]; simp
    have hdt : P.timeInitial + ((n + 1 : ℕ) : ℝ) * P.dt - s1.time = P.dt := by
      rw [ht1]; push_cast; ring
    have hval : ∀ hne : P.timeInitial + ((n + 1 : ℕ) : ℝ) * P.dt ≠ s1.time,
        nodeValue C (obj d .v (.increment 0 1 false)) (s1.vecs .u)
          (P.timeInitial + ((n + 1 : ℕ) : ℝ) * P.dt) s1.time l = .ok (w2 .v (l * 3 + k)) := by
      intro hne
      have hsk : skips (obj d .v (.increment 0 1 false))
          (P.timeInitial + ((n + 1 : ℕ) : ℝ) * P.dt) s1.time = false := by
        unfold skips
        exact decide_eq_false hne
      have := a3 _ _ _ hsplit hsk .v (l * 3 + k) l
        ⟨rfl, by
          show l * 3 + k = l * 3 + (d.coord : Nat)
          rw [hcov.1], by
          obtain ⟨_, nodes, hn, hg⟩ := hcov
          exact ⟨nodes, g, hn, hg, hl⟩⟩ (by
          intro c' hc' l' hhit
          obtain ⟨d', hd', hc''⟩ := List.mem_flatMap.mp hc'
          obtain ⟨t1, t2⟩ := hits_boundary_v hl hk hc'' hhit
          exact hpost d' hd' t1 t2)
      rw [setVec_ne _ _ (by decide)] at this
      exact this
    have hufin : s'.vecs .u (l * 3 + k) = s1.vecs .u (l * 3 + k) + P.dt * w2 .v (l * 3 + k) := by
      rw [hv, setVec_ne _ _ (by decide), hu, e3u, e3v, a1]
    by_cases hz : P.dt = 0
    · rw [hufin, hz, zero_mul, add_zero, ht, hz, mul_zero, add_zero]
      rw [ht1, hz, mul_zero, add_zero] at ih1
      exact ih1
    · have hne : P.timeInitial + ((n + 1 : ℕ) : ℝ) * P.dt ≠ s1.time := by
        intro e; rw [e, sub_self] at hdt; exact hz hdt.symm
      obtain ⟨_, cur, prev, hc, hp, hr⟩ := velocity_value hd (hval hne)
      rw [ih1] at hp
      injection hp with hp
      rw [hdt, hcov.1] at hr
      rw [hufin, hr, ht, hc, ← hp, ite_self]
      congr 1
      field_simp
      ring

/-- C32 for a whole run: the condition holds for the displacements of the input, hence at every
step. -/
theorem C32_run (P : Params) (C : Ctx) (ds : List Definition) (cs : Conditions)
    (hcs : makeConditions ds = .ok cs) (eval : Eval σ) (vecs : Vecs) (b : σ) (s0 : State σ)
    (hi : initialStep P C cs eval vecs b = .ok s0)
    (pre post : List Definition) (d : Definition) (hds : ds = pre ++ d :: post)
    (hd : d.type = .prescribedDisplacement) (g l k : Nat) (hl : lid C.owned g = some l)
    (hcov : Covers C.sets d g k)
    (hpost : ∀ d' ∈ post, d'.type = .prescribedDisplacement → ¬ Covers C.sets d' g k)
    (h0 : d.value (C.x (l * 3)) (C.x (l * 3 + 1)) (C.x (l * 3 + 2)) P.timeInitial =
      some (vecs .u (l * 3 + k)))
    (n : Nat) (s' : State σ) (h : run P C cs eval s0 n = .ok s') :
    d.value (C.x (l * 3)) (C.x (l * 3 + 1)) (C.x (l * 3 + 2)) (P.timeInitial + n * P.dt) =
      some (s'.vecs .u (l * 3 + k)) := by
  obtain ⟨ht, w1, f, _, hb, hf, _⟩ := initialStep_ok hi
  obtain ⟨hbd, _, hco, _⟩ := makeConditions_ok hcs
  have e1 : s0.vecs .u = w1 .u :=
    (body_force_last_wins_partial C ds cs hcs _ _ _ _ hf).2 .u (by decide)
  have e2 : w1 .u = vecs .u := (applyAll_ok cs.boundary (fun c hc =>
    (boundary_target (ds := ds) (by rw [← hbd]; exact hc)).1) hco _ _ hb).1
  rw [← run_time ht n s' h]
  exact C32_follows P C ds cs hcs eval s0 ht pre post d hds hd g l k hl hcov hpost
    (by rw [e1, e2]; exact h0) n s' h

/-- The prescribed displacement `2 t` of the only node, which starts undisplaced. -/
example : ∃ cs s0, makeConditions [pulled] = .ok cs ∧ lid oneNode.owned 0 = some 0 ∧
    Covers oneNode.sets pulled 0 0 ∧ pulled.value 0 0 0 demoParams.timeInitial = some 0 ∧
    initialStep demoParams oneNode cs spring (fun _ _ => 0) () = .ok s0 ∧
    ∃ s, run demoParams oneNode cs spring s0 5 = .ok s ∧ s.vecs .u 0 = 5 := by
  obtain ⟨cs, s0, h1, h2, h3⟩ := demo_run (fun _ _ => 0)
  have hc : Covers oneNode.sets pulled 0 0 := ⟨rfl, [0], rfl, by simp⟩
  have hv : pulled.value 0 0 0 demoParams.timeInitial = some 0 := by
    simp [pulled, demoParams]
  obtain ⟨s, hs⟩ := h3 5
  refine ⟨cs, s0, h1, rfl, hc, hv, h2, s, hs, ?_⟩
  have := C32_run demoParams oneNode [pulled] cs h1 spring _ () s0 h2 [] [] pulled rfl rfl 0 0 0 rfl hc
    (by simp) hv 5 s hs
  have e : some (5 : ℝ) = some (s.vecs .u (0 * 3 + 0)) := by
    rw [← this]; norm_num [pulled, demoParams]
  injection e with e
  exact e.symm

/-! ## C38: linear momentum -/

/-- C38, general form: without conditions, and if the evaluated forces have no resultant, the
linear momentum after any number of steps is that of the initial velocities. -/
theorem C38_momentum (P : Params) (C : Ctx) (cs : Conditions) (hcs : makeConditions [] = .ok cs)
    (eval : Eval σ) (V : Nat → ℝ) (N : Nat) (hlen : P.length = 3 * N) (hbal : Balanced eval V N)
    (vecs : Vecs) (b : σ) (s0 : State σ) (hi : initialStep P C cs eval vecs b = .ok s0) (k : Nat)
    (hk : k < 3) (n : Nat) (s : State σ) (h : run P C cs eval s0 n = .ok s) :
    momentum P V N k (s.vecs .v) = momentum P V N k (vecs .v) := by
  obtain ⟨hb0, hf0⟩ := no_conditions hcs
  suffices H : momentum P V N k s.a = 0 ∧ momentum P V N k (s.vecs .v) = momentum P V N k (vecs .v) from
    H.2
  induction n generalizing s with
  | zero =>
    have := ok_inj h
    subst this
    obtain ⟨_, w1, f, he, hb, hf, ha⟩ := initialStep_ok hi
    rw [hb0] at hb
    rw [hf0] at hf
    have e1 : vecs = w1 := ok_inj hb
    have e2 : clearForce w1 = s0.vecs := ok_inj hf
    obtain ⟨hd, ha⟩ := acceleration_ok ha
    constructor
    · refine balanced_acceleration hk hlen (f := f) hd (fun i => ?_) (hbal _ _ _ _ _ he k hk)
      rw [ha, ← e2]; simp [clearForce]
    · have : s0.vecs .v = vecs .v := by rw [← e2, ← e1]; funext i; simp [clearForce]
      rw [this]
  | succ n ih =>
    obtain ⟨s1, h1, h2⟩ := run_succ h
    obtain ⟨i1, i2⟩ := ih s1 h1
    obtain ⟨w, f, he, _, _, hd, ha, _, _, hv⟩ := advance_free hcs h2
    have z := balanced_acceleration hk hlen hd ha (hbal _ _ _ _ _ he k hk)
    refine ⟨z, ?_⟩
    rw [funext hv, momentum_add, momentum_add, i1, z, mul_zero, add_zero, add_zero, i2]

/-- Two points of volumes 1 and 2 attract each other: forces without resultant, and a run. -/
example : Balanced (σ := Unit) (fun _ _ w => .ok ((), fun i =>
      if i < 3 then 2 * (w .y (i + 3) - w .y i) else w .y (i - 3) - w .y i))
      (fun l => if l = 0 then 1 else 2) 2 := by
  intro b n w b' f h k hk
  have e := (Prod.mk.inj (ok_inj h)).2
  rw [← e]
  have h1 : ¬ (3 + k < 3) := by omega
  simp [Finset.sum_range_succ, hk]
  rw [Nat.add_comm]
  ring

/-! ## C39: reversibility -/

/-- C39: run `n` steps from a state `s` whose acceleration is that of its configuration, reverse the
velocities, and run `n` steps again, beginning at any time: displacements, positions and
accelerations are those of `s` and velocities are reversed. -/
theorem C39_reversible (P P' : Params) (hP : P'.dt = P.dt ∧ P'.density = P.density) (C : Ctx)
    (cs : Conditions) (hcs : makeConditions [] = .ok cs) (eval : Eval σ) (F : (Nat → ℝ) → Nat → ℝ)
    (hF : ∀ b n w b' f, eval b n w = .ok (b', f) → f = F (w .y)) (s s1 r s2 : State σ)
    (hs : ∀ i, s.a i = F (fun i => C.x i + s.vecs .u i) i / P.density (i / 3)) (n : Nat)
    (h1 : run P C cs eval s n = .ok s1)
    (hr : r.a = s1.a ∧ r.vecs .u = s1.vecs .u ∧ ∀ i, r.vecs .v i = - s1.vecs .v i)
    (h2 : run P' C cs eval r n = .ok s2) (i : Nat) :
    s2.vecs .u i = s.vecs .u i ∧ s2.vecs .v i = - s.vecs .v i ∧ s2.a i = s.a i := by
  have e1 := run_leap hcs hF s n s1 h1
  have e2 := run_leap hcs hF r n s2 h2
  have hl : leap P' C.x F = leap P C.x F := by
    funext z; unfold leap; rw [hP.1, hP.2]
  have er : motion r = reverse (motion s1) :=
    Prod.ext hr.2.1 (Prod.ext (funext hr.2.2) hr.1)
  rw [hl, er, e1, leap_back P C.x F (motion s) (funext hs) n] at e2
  have a1 := congrFun (congrArg Prod.fst e2) i
  have a2 := congrFun (congrArg (fun z => z.2.1) e2) i
  have a3 := congrFun (congrArg (fun z => z.2.2) e2) i
  exact ⟨a1, a2, a3⟩

/-- The spring from a displaced position: consistent initial acceleration and a run there and back. -/
example : ∃ s0 s1, (∀ i, s0.a i = - (0 + s0.vecs .u i) / demoParams.density (i / 3)) ∧
    s0.vecs .u 0 = 1 ∧ run demoParams oneNode {} spring s0 4 = .ok s1 ∧
    ∃ s2, run demoParams oneNode {} spring
      { s1 with vecs := setVec s1.vecs .v fun i => - s1.vecs .v i } 4 = .ok s2 := by
  obtain ⟨_, _, _, hd⟩ := demo_free (fun _ _ => 0)
  obtain ⟨s1, h1⟩ := hd { vecs := fun _ _ => 1, a := fun _ => -1, time := 0, blocks := () } 4
  obtain ⟨s2, h2⟩ := hd { s1 with vecs := setVec s1.vecs .v fun i => - s1.vecs .v i } 4
  exact ⟨_, s1, fun i => by simp [demoParams], rfl, h1, s2, h2⟩

end Verif.Explicit
