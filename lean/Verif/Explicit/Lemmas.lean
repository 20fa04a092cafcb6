import Verif.Explicit.Spec
import Verif.BC.Props

/-!
# Explicit time integration: helper lemmas
-/

namespace Verif.Explicit

open Verif Verif.BC

variable {σ : Type}

@[simp] theorem setVec_self (s : Vecs) (t : Target) (f : Nat → ℝ) : setVec s t f t = f := by
  unfold setVec; rw [if_pos rfl]

theorem setVec_ne (s : Vecs) {t t' : Target} (f : Nat → ℝ) (h : t' ≠ t) : setVec s t f t' = s t' := by
  unfold setVec; rw [if_neg h]

/-- What the predictor of a step does, vector by vector. -/
theorem predictor_ok {P : Params} {C : Ctx} {cs : Conditions} {s : State σ} {tc : ℝ} {w : Vecs}
    (h : predictor P C cs s tc = .ok w) :
    ∃ w2 w3, applyBoundary C cs.boundary tc s.time
        (setVec s.vecs .v (axpy (P.dt / 2) s.a (s.vecs .v))) = .ok w2 ∧
      applyForces C cs.force tc s.time w2 = .ok w3 ∧
      w .u = (fun i => w3 .u i + P.dt * w3 .v i) ∧
      w .y = (fun i => C.x i + w3 .u i + P.dt * w3 .v i) ∧
      (∀ t, t ≠ .u → t ≠ .y → w t = w3 t) := by
  unfold predictor at h
  obtain ⟨w2, h2, h⟩ := Outcome.bind_eq_ok.mp h
  obtain ⟨w3, h3, h⟩ := Outcome.bind_eq_ok.mp h
  have e := ok_inj h
  refine ⟨w2, w3, h2, h3, ?_, ?_, ?_⟩
  · rw [← e, setVec_self, setVec_ne _ _ (by decide), setVec_ne _ _ (by decide)]; rfl
  · rw [← e, setVec_ne _ _ (by decide), setVec_self]
  · intro t h1 h2
    rw [← e, setVec_ne _ _ h1, setVec_ne _ _ h2]

theorem acceleration_ok {P : Params} {f e a : Nat → ℝ} (h : acceleration P f e = .ok a) :
    (∀ i < P.length, P.density (i / 3) ≠ 0) ∧ a = fun i => (f i + e i) / P.density (i / 3) := by
  unfold acceleration at h
  split at h
  · exact absurd h (by simp)
  · rename_i hn
    refine ⟨fun i hi he => hn ⟨i, hi, he⟩, (ok_inj h).symm⟩

theorem advance_ok {P : Params} {C : Ctx} {cs : Conditions} {eval : Eval σ} {s s' : State σ}
    {n : Nat} (h : advance P C cs eval s n = .ok s') :
    ∃ w f, predictor P C cs s (P.timeInitial + n * P.dt) = .ok w ∧
      eval s.blocks n w = .ok (s'.blocks, f) ∧
      acceleration P f (w .externalForce) = .ok s'.a ∧
      s'.time = P.timeInitial + n * P.dt ∧
      s'.vecs = setVec w .v (axpy (P.dt / 2) s'.a (w .v)) := by
  unfold advance at h
  obtain ⟨w, hw, h⟩ := Outcome.bind_eq_ok.mp h
  obtain ⟨r, hr, h⟩ := Outcome.bind_eq_ok.mp h
  obtain ⟨a, ha, h⟩ := Outcome.bind_eq_ok.mp h
  have e := ok_inj h
  subst e
  exact ⟨w, r.2, hw, hr, ha, rfl, rfl⟩

theorem run_succ {P : Params} {C : Ctx} {cs : Conditions} {eval : Eval σ} {s s' : State σ} {n : Nat}
    (h : run P C cs eval s (n + 1) = .ok s') :
    ∃ s1, run P C cs eval s n = .ok s1 ∧ advance P C cs eval s1 (n + 1) = .ok s' :=
  Outcome.bind_eq_ok.mp h

theorem run_time {P : Params} {C : Ctx} {cs : Conditions} {eval : Eval σ} {s : State σ}
    (hs : s.time = P.timeInitial) : ∀ (n : Nat) (s' : State σ), run P C cs eval s n = .ok s' →
    s'.time = P.timeInitial + n * P.dt := by
  intro n
  cases n with
  | zero => intro s' h; rw [← ok_inj h, hs]; simp
  | succ n =>
    intro s' h
    obtain ⟨s1, _, h2⟩ := run_succ h
    obtain ⟨_, _, _, _, _, ht, _⟩ := advance_ok h2
    exact ht

theorem initialStep_ok {P : Params} {C : Ctx} {cs : Conditions} {eval : Eval σ} {vecs : Vecs}
    {blocks : σ} {s : State σ} (h : initialStep P C cs eval vecs blocks = .ok s) :
    s.time = P.timeInitial ∧ ∃ w1 f, eval blocks 0 vecs = .ok (s.blocks, f) ∧
      applyBoundary C cs.boundary P.timeInitial P.timeInitial vecs = .ok w1 ∧
      applyForces C cs.force P.timeInitial P.timeInitial w1 = .ok s.vecs ∧
      acceleration P f (s.vecs .externalForce) = .ok s.a := by
  unfold initialStep at h
  obtain ⟨r, hr, h⟩ := Outcome.bind_eq_ok.mp h
  obtain ⟨w1, h1, h⟩ := Outcome.bind_eq_ok.mp h
  obtain ⟨w2, h2, h⟩ := Outcome.bind_eq_ok.mp h
  obtain ⟨a, ha, h⟩ := Outcome.bind_eq_ok.mp h
  have e := ok_inj h
  subst e
  exact ⟨rfl, w1, r.2, hr, h1, h2, ha⟩

/-! ## The entries of a constrained degree of freedom -/

theorem hits_boundary_v {C : Ctx} {d : Definition} {g k l : Nat} (hl : lid C.owned g = some l)
    (hk : k < 3) {c : Condition} (hc : c ∈ boundaryOf d) {l' : Nat}
    (h : Hits C c .v (l * 3 + k) l') :
    d.type = .prescribedDisplacement ∧ Covers C.sets d g k := by
  unfold boundaryOf at hc
  cases ht : d.type <;> rw [ht] at hc <;> simp only [List.mem_cons, List.not_mem_nil, or_false] at hc
  case prescribedDisplacement =>
    rcases hc with rfl | rfl
    · exact absurd h.1 (by simp [obj])
    · obtain ⟨_, hi, nodes, g', hs, hg', hl'⟩ := h
      have hi' : l * 3 + k = l' * 3 + (d.coord : Nat) := hi
      have hcoord := d.coord.isLt
      have e1 : l = l' := by omega
      subst e1
      have : g' = g := lid_inj hl' hl
      subst this
      exact ⟨rfl, by omega, nodes, hs, hg'⟩
  case prescribedFluidPressure => rcases hc with rfl | rfl <;> exact absurd h.1 (by simp [obj])
  case prescribedTemperature => rcases hc with rfl | rfl <;> exact absurd h.1 (by simp [obj])
  case thermalFlux => subst hc; exact absurd h.1 (by simp [obj])

theorem callFunction_ok {C : Ctx} {c : Condition} {l : Nat} {t r : ℝ}
    (h : callFunction C c l t = .ok r) :
    c.value (C.x (l * 3)) (C.x (l * 3 + 1)) (C.x (l * 3 + 2)) t = some r := by
  unfold callFunction at h
  split at h
  · rename_i v hv
    rw [hv, ok_inj h]
  · exact absurd h (by simp)

/-- The velocity a prescribed displacement writes. -/
theorem velocity_value {C : Ctx} {d : Definition} (hd : d.type = .prescribedDisplacement)
    {u : Nat → ℝ} {tc tp r : ℝ} {l : Nat}
    (h : nodeValue C (obj d .v (.increment 0 1 false)) u tc tp l = .ok r) :
    tc - tp ≠ 0 ∧ ∃ cur prev,
      d.value (C.x (l * 3)) (C.x (l * 3 + 1)) (C.x (l * 3 + 2)) tc = some cur ∧
      d.value (C.x (l * 3)) (C.x (l * 3 + 1)) (C.x (l * 3 + 2)) tp = some prev ∧
      r = (cur - (if cur - prev = 0 then u (l * 3 + d.coord) else prev)) / (tc - tp) := by
  unfold nodeValue at h
  simp only [obj] at h
  obtain ⟨p, hp, h⟩ := Outcome.bind_eq_ok.mp h
  unfold evaluateParser at hp
  obtain ⟨prev, h1, hp⟩ := Outcome.bind_eq_ok.mp hp
  obtain ⟨cur, h2, hp⟩ := Outcome.bind_eq_ok.mp hp
  have e := ok_inj hp
  unfold incrementValue at h
  have ht : previousTime false tp = tp := rfl
  rw [ht] at h h1
  split at h
  · exact absurd h (by simp)
  · rename_i hne
    refine ⟨hne, cur, prev, callFunction_ok h2, callFunction_ok h1, ?_⟩
    have e2 := ok_inj h
    rw [← e2, ← e]
    simp only [hd, true_and]
    field_simp
    ring

/-! ## Runs without conditions -/

theorem no_conditions {cs : Conditions} (hcs : makeConditions [] = .ok cs) :
    cs.boundary = [] ∧ cs.force = [] := by
  obtain ⟨a, b, _⟩ := makeConditions_ok hcs
  exact ⟨by simpa using a, by simpa using b⟩

/-- A step without conditions. -/
theorem advance_free {P : Params} {C : Ctx} {cs : Conditions} (hcs : makeConditions [] = .ok cs)
    {eval : Eval σ} {s s' : State σ} {n : Nat} (h : advance P C cs eval s n = .ok s') :
    ∃ w f, eval s.blocks n w = .ok (s'.blocks, f) ∧
      (∀ i, w .u i = s.vecs .u i + P.dt * (s.vecs .v i + P.dt / 2 * s.a i)) ∧
      (∀ i, w .y i = C.x i + w .u i) ∧
      (∀ i < P.length, P.density (i / 3) ≠ 0) ∧
      (∀ i, s'.a i = f i / P.density (i / 3)) ∧
      (∀ i, s'.vecs .u i = w .u i) ∧ (∀ i, s'.vecs .y i = w .y i) ∧
      (∀ i, s'.vecs .v i = s.vecs .v i + P.dt / 2 * s.a i + P.dt / 2 * s'.a i) := by
  obtain ⟨hb0, hf0⟩ := no_conditions hcs
  obtain ⟨w, f, hw, he, ha, _, hv⟩ := advance_ok h
  obtain ⟨w2, w3, hb, hf, hu, hy, ho⟩ := predictor_ok hw
  rw [hb0] at hb
  rw [hf0] at hf
  have e2 : w2 = setVec s.vecs .v (axpy (P.dt / 2) s.a (s.vecs .v)) := (ok_inj hb).symm
  have e3 : w3 = clearForce w2 := (ok_inj hf).symm
  have hv3 : w3 .v = axpy (P.dt / 2) s.a (s.vecs .v) := by
    rw [e3, e2]; funext i; simp [clearForce]
  have hu3 : w3 .u = s.vecs .u := by
    rw [e3, e2]; funext i; simp [clearForce, setVec]
  have he3 : w .externalForce = fun _ => 0 := by
    rw [ho _ (by decide) (by decide), e3]; funext i; simp [clearForce]
  obtain ⟨hd, ha⟩ := acceleration_ok ha
  refine ⟨w, f, he, ?_, ?_, hd, ?_, ?_, ?_, ?_⟩
  · intro i; rw [hu, hu3, hv3]; simp [axpy]
  · intro i; rw [hu, hy]; ring
  · intro i; rw [ha, he3]; simp
  · intro i; rw [hv, setVec_ne _ _ (by decide)]
  · intro i; rw [hv, setVec_ne _ _ (by decide)]
  · intro i; rw [hv, setVec_self, ho _ (by decide) (by decide), hv3]; simp [axpy]

theorem balanced_acceleration {P : Params} {V : Nat → ℝ} {N k : Nat} (hk : k < 3)
    (hlen : P.length = 3 * N) {f a : Nat → ℝ} (hd : ∀ i < P.length, P.density (i / 3) ≠ 0)
    (ha : ∀ i, a i = f i / P.density (i / 3))
    (hf : ∑ l ∈ Finset.range N, V l * f (l * 3 + k) = 0) : momentum P V N k a = 0 := by
  rw [← hf]
  unfold momentum
  refine Finset.sum_congr rfl fun l hl => ?_
  have hl := Finset.mem_range.mp hl
  have e : (l * 3 + k) / 3 = l := by omega
  have := hd (l * 3 + k) (by omega)
  rw [e] at this
  rw [ha, e]
  field_simp

theorem momentum_add (P : Params) (V : Nat → ℝ) (N k : Nat) (c : ℝ) (v a : Nat → ℝ) :
    momentum P V N k (fun i => v i + c * a i) = momentum P V N k v + c * momentum P V N k a := by
  unfold momentum
  induction N with
  | zero => simp
  | succ N ih => rw [Finset.sum_range_succ, Finset.sum_range_succ, Finset.sum_range_succ, ih]; ring

/-! ## Reversal -/

/-- Displacement, velocity and acceleration of a state. -/
def motion (s : State σ) : (Nat → ℝ) × (Nat → ℝ) × (Nat → ℝ) := (s.vecs .u, s.vecs .v, s.a)

/-- One step of the scheme on displacement, velocity and acceleration. -/
noncomputable def leap (P : Params) (x : Nat → ℝ) (F : (Nat → ℝ) → Nat → ℝ)
    (z : (Nat → ℝ) × (Nat → ℝ) × (Nat → ℝ)) : (Nat → ℝ) × (Nat → ℝ) × (Nat → ℝ) :=
  let u := fun i => z.1 i + P.dt * (z.2.1 i + P.dt / 2 * z.2.2 i)
  let a := fun i => F (fun i => x i + u i) i / P.density (i / 3)
  (u, fun i => z.2.1 i + P.dt / 2 * z.2.2 i + P.dt / 2 * a i, a)

/-- Reversal of the velocity. -/
def reverse (z : (Nat → ℝ) × (Nat → ℝ) × (Nat → ℝ)) : (Nat → ℝ) × (Nat → ℝ) × (Nat → ℝ) :=
  (z.1, fun i => - z.2.1 i, z.2.2)

theorem leap_reverse (P : Params) (x : Nat → ℝ) (F : (Nat → ℝ) → Nat → ℝ)
    (z : (Nat → ℝ) × (Nat → ℝ) × (Nat → ℝ))
    (hz : z.2.2 = fun i => F (fun i => x i + z.1 i) i / P.density (i / 3)) :
    leap P x F (reverse (leap P x F z)) = reverse z := by
  obtain ⟨u, v, a⟩ := z
  simp only at hz
  have hu : (leap P x F (reverse (leap P x F (u, v, a)))).1 = u := by
    funext i; simp only [leap, reverse]; ring
  have ha : (leap P x F (reverse (leap P x F (u, v, a)))).2.2 = a := by
    have : (leap P x F (reverse (leap P x F (u, v, a)))).2.2 =
      fun i => F (fun i => x i + (leap P x F (reverse (leap P x F (u, v, a)))).1 i) i /
        P.density (i / 3) := rfl
    rw [this, hu, hz]
  refine Prod.ext hu (Prod.ext ?_ ha)
  have : (leap P x F (reverse (leap P x F (u, v, a)))).2.1 = fun i =>
      -(leap P x F (u, v, a)).2.1 i + P.dt / 2 * (leap P x F (u, v, a)).2.2 i +
      P.dt / 2 * (leap P x F (reverse (leap P x F (u, v, a)))).2.2 i := rfl
  rw [this, ha]
  funext i
  simp only [leap, reverse]
  ring

theorem leap_consistent (P : Params) (x : Nat → ℝ) (F : (Nat → ℝ) → Nat → ℝ)
    (z : (Nat → ℝ) × (Nat → ℝ) × (Nat → ℝ))
    (hz : z.2.2 = fun i => F (fun i => x i + z.1 i) i / P.density (i / 3)) (n : Nat) :
    ((leap P x F)^[n] z).2.2 =
      fun i => F (fun i => x i + ((leap P x F)^[n] z).1 i) i / P.density (i / 3) := by
  cases n with
  | zero => exact hz
  | succ n => rw [Function.iterate_succ_apply']; rfl

theorem leap_back (P : Params) (x : Nat → ℝ) (F : (Nat → ℝ) → Nat → ℝ)
    (z : (Nat → ℝ) × (Nat → ℝ) × (Nat → ℝ))
    (hz : z.2.2 = fun i => F (fun i => x i + z.1 i) i / P.density (i / 3)) (n : Nat) :
    (leap P x F)^[n] (reverse ((leap P x F)^[n] z)) = reverse z := by
  induction n with
  | zero => rfl
  | succ n ih =>
    rw [Function.iterate_succ_apply, Function.iterate_succ_apply',
      leap_reverse P x F _ (leap_consistent P x F z hz n)]
    exact ih

theorem run_leap {P : Params} {C : Ctx} {cs : Conditions} (hcs : makeConditions [] = .ok cs)
    {eval : Eval σ} {F : (Nat → ℝ) → Nat → ℝ}
    (hF : ∀ b n w b' f, eval b n w = .ok (b', f) → f = F (w .y)) (s : State σ) (n : Nat) :
    ∀ s', run P C cs eval s n = .ok s' → motion s' = (leap P C.x F)^[n] (motion s) := by
  induction n with
  | zero => intro s' h; rw [← ok_inj h]; rfl
  | succ n ih =>
    intro s' h
    obtain ⟨s1, h1, h2⟩ := run_succ h
    rw [Function.iterate_succ_apply', ← ih s1 h1]
    obtain ⟨w, f, he, hu, hy, _, ha, hu', _, hv⟩ := advance_free hcs h2
    have ef := hF _ _ _ _ _ he
    have e1 : s'.vecs .u = (leap P C.x F (motion s1)).1 := by
      funext i; rw [hu', hu]; rfl
    have e2 : s'.a = (leap P C.x F (motion s1)).2.2 := by
      funext i
      rw [ha, ef]
      have : w .y = fun i => C.x i + (leap P C.x F (motion s1)).1 i := by
        funext j; rw [hy, ← hu', e1]
      rw [this]; rfl
    have e3 : s'.vecs .v = (leap P C.x F (motion s1)).2.1 := by
      funext i; rw [hv, e2]; rfl
    exact Prod.ext e1 (Prod.ext e3 e2)

/-! ## Definedness -/

theorem callFunction_defined {C : Ctx} {c : Condition}
    (h : ∀ x y z t, (c.value x y z t).isSome) (l : Nat) (t : ℝ) : ∃ r, callFunction C c l t = .ok r := by
  obtain ⟨r, hr⟩ := Option.isSome_iff_exists.mp (h (C.x (l * 3)) (C.x (l * 3 + 1)) (C.x (l * 3 + 2)) t)
  exact ⟨r, by unfold callFunction; rw [hr]⟩

theorem evaluateParser_defined {C : Ctx} {c : Condition}
    (h : ∀ x y z t, (c.value x y z t).isSome) (u : Nat → ℝ) (l : Nat) (tc tp : ℝ) :
    ∃ r, evaluateParser C c u l tc tp = .ok r := by
  obtain ⟨a, ha⟩ := callFunction_defined (C := C) h l tp
  obtain ⟨b, hb⟩ := callFunction_defined (C := C) h l tc
  exact ⟨_, Outcome.bind_eq_ok.mpr ⟨a, ha, Outcome.bind_eq_ok.mpr ⟨b, hb, rfl⟩⟩⟩

theorem nodeValue_defined {C : Ctx} {c : Condition} (h : ∀ x y z t, (c.value x y z t).isSome)
    (hk : ∀ p q, c.kind ≠ .increment p q true) (u : Nat → ℝ) {tc tp : ℝ}
    (hs : skips c tc tp = false) (l : Nat) : ∃ r, nodeValue C c u tc tp l = .ok r := by
  unfold nodeValue
  unfold skips at hs
  split
  · obtain ⟨r, hr⟩ := evaluateParser_defined (C := C) h u l tc 0
    exact ⟨r.1, Outcome.bind_eq_ok.mpr ⟨r, hr, rfl⟩⟩
  · rename_i p q rel hkind
    cases rel with
    | true => exact absurd hkind (hk p q)
    | false =>
      rw [hkind] at hs
      have hne : tc - tp ≠ 0 := sub_ne_zero.mpr (by simpa using hs)
      obtain ⟨r, hr⟩ := evaluateParser_defined (C := C) h u l tc (previousTime false tp)
      have hi : ∃ z, incrementValue p q tc (previousTime false tp) r.1 r.2 = .ok z := by
        unfold incrementValue
        rw [if_neg (show ¬ (tc - previousTime false tp = 0) from hne)]
        exact ⟨_, rfl⟩
      obtain ⟨z, hz⟩ := hi
      exact ⟨z, Outcome.bind_eq_ok.mpr ⟨r, hr, hz⟩⟩
  · exact ⟨0, rfl⟩

theorem foldlM_defined {α β : Type} {f : β → α → Outcome β} (l : List α)
    (h : ∀ a ∈ l, ∀ b, ∃ b', f b a = .ok b') : ∀ b, ∃ b', l.foldlM f b = .ok b' := by
  induction l with
  | nil => intro b; exact ⟨b, rfl⟩
  | cons a l ih =>
    intro b
    obtain ⟨b1, h1⟩ := h a (List.mem_cons_self ..) b
    obtain ⟨b2, h2⟩ := ih (fun a' ha' => h a' (List.mem_cons_of_mem _ ha')) b1
    exact ⟨b2, foldlM_cons_ok.mpr ⟨b1, h1, h2⟩⟩

theorem apply_defined {C : Ctx} {cs : List Condition} (h : Regular C cs) {c : Condition} (hc : c ∈ cs)
    (tc tp : ℝ) (s : Vecs) : ∃ s', apply C tc tp s c = .ok s' := by
  obtain ⟨⟨nodes, hn⟩, hv, hk⟩ := h c hc
  unfold apply
  split
  · exact ⟨s, rfl⟩
  · rename_i hs
    have hs : skips c tc tp = false := by simpa using hs
    unfold applyToSet
    rw [hn]
    refine foldlM_defined nodes (fun g _ w => ?_) s
    unfold applyNode
    split
    · exact ⟨w, rfl⟩
    · rename_i l _
      obtain ⟨r, hr⟩ := nodeValue_defined (C := C) hv hk (w .u) hs l
      exact ⟨_, Outcome.bind_eq_ok.mpr ⟨r, hr, rfl⟩⟩

theorem applyAll_defined {C : Ctx} {cs : List Condition} (h : Regular C cs) (tc tp : ℝ) (s : Vecs) :
    ∃ s', cs.foldlM (apply C tc tp) s = .ok s' :=
  foldlM_defined cs (fun _ hc w => apply_defined h hc tc tp w) s

theorem acceleration_defined {P : Params} (h : ∀ i < P.length, P.density (i / 3) ≠ 0)
    (f e : Nat → ℝ) : ∃ a, acceleration P f e = .ok a := by
  refine ⟨fun i => (f i + e i) / P.density (i / 3), ?_⟩
  unfold acceleration
  rw [if_neg]
  rintro ⟨i, hi, he⟩
  exact h i hi he

end Verif.Explicit
