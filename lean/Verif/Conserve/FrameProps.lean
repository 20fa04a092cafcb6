import Verif.Conserve.FrameSpec
import Verif.Conserve.Props
import Verif.Mech.FrameProps

/-! C259: explicit dynamics in a moving frame. -/

noncomputable section

namespace Verif.Conserve

open Verif Verif.Neigh Verif.Mech Verif.Explicit

variable {σ : Type}

theorem acceleration_intro {P : Params} (hd : ∀ i < P.length, P.density (i / 3) ≠ 0) (f e : Nat → ℝ) :
    acceleration P f e = .ok fun i => (f i + e i) / P.density (i / 3) := by
  unfold acceleration
  rw [if_neg]
  rintro ⟨i, hi, h⟩
  exact hd i hi h

/-- A step without conditions succeeds if its evaluation does. -/
theorem advance_intro {P : Params} {X : BC.Ctx} {cs : BC.Conditions} (hcs : BC.makeConditions [] = .ok cs) (eval : Eval σ) (s : State σ)
    (n : Nat) (hd : ∀ i < P.length, P.density (i / 3) ≠ 0) :
    ∃ w : BC.Vecs, (∀ i, w .y i = X.x i + (s.vecs .u i + P.dt * (s.vecs .v i + P.dt / 2 * s.a i))) ∧
      ∀ b' f, eval s.blocks n w = .ok (b', f) → ∃ s', advance P X cs eval s n = .ok s' ∧ s'.blocks = b' ∧ ∀ i, s'.a i = f i / P.density (i / 3) := by
  obtain ⟨hb0, hf0⟩ := no_conditions hcs
  obtain ⟨w3, hw3⟩ : ∃ w3, w3 = BC.clearForce (setVec s.vecs .v (axpy (P.dt / 2) s.a (s.vecs .v))) := ⟨_, rfl⟩
  obtain ⟨z, hz⟩ : ∃ z, z = setVec (setVec w3 .y fun i => X.x i + w3 .u i + P.dt * w3 .v i) .u
      (axpy P.dt ((setVec w3 .y fun i => X.x i + w3 .u i + P.dt * w3 .v i) .v) ((setVec w3 .y fun i => X.x i + w3 .u i + P.dt * w3 .v i) .u)) := ⟨_, rfl⟩
  have hp : predictor P X cs s (P.timeInitial + n * P.dt) = .ok z := by
    unfold predictor
    rw [hb0, hf0, hz, hw3]
    rfl
  refine ⟨z, fun i => ?_, fun b' f hf => ?_⟩
  · rw [hz, hw3]
    simp [setVec, BC.clearForce, axpy]
    ring
  · unfold advance
    rw [hp]
    simp only [Outcome.ok_bind]
    rw [hf]
    simp only [Outcome.ok_bind]
    rw [acceleration_intro hd]
    refine ⟨_, rfl, rfl, fun i => ?_⟩
    have : z .externalForce i = 0 := by
      rw [hz, hw3]
      simp [setVec, BC.clearForce]
    simp only [this, add_zero]

theorem initial_intro {P : Params} {X : BC.Ctx} {cs : BC.Conditions} (hcs : BC.makeConditions [] = .ok cs) (eval : Eval σ) (vecs : BC.Vecs)
    (b : σ) (hd : ∀ i < P.length, P.density (i / 3) ≠ 0) (b' : σ) (f : Nat → ℝ) (h : eval b 0 vecs = .ok (b', f)) :
    ∃ s, initialStep P X cs eval vecs b = .ok s ∧ s.blocks = b' ∧ (∀ i, s.a i = f i / P.density (i / 3)) ∧
      (∀ i, s.vecs .u i = vecs .u i) ∧ (∀ i, s.vecs .v i = vecs .v i) ∧ ∀ i, s.vecs .y i = vecs .y i := by
  obtain ⟨hb0, hf0⟩ := no_conditions hcs
  have hb : BC.applyBoundary X cs.boundary P.timeInitial P.timeInitial vecs = .ok vecs := by rw [hb0]; rfl
  have hf : BC.applyForces X cs.force P.timeInitial P.timeInitial vecs = .ok (BC.clearForce vecs) := by rw [hf0]; rfl
  unfold initialStep
  rw [h]
  simp only [Outcome.ok_bind]
  rw [hb]
  simp only [Outcome.ok_bind]
  rw [hf]
  simp only [Outcome.ok_bind]
  rw [acceleration_intro hd]
  exact ⟨_, rfl, rfl, fun i => by simp [BC.clearForce], fun i => by simp [BC.clearForce], fun i => by simp [BC.clearForce],
    fun i => by simp [BC.clearForce]⟩

theorem at3_div {P : Params} {a f : Nat → ℝ} (h : ∀ i, a i = f i / P.density (i / 3)) (l : Nat) : at3 a l = (P.density l)⁻¹ • at3 f l := by
  funext k
  have e : (l * 3 + (k : Nat)) / 3 = l := by have := k.isLt; omega
  show a (l * 3 + k) = (P.density l)⁻¹ * f (l * 3 + k)
  rw [h, e, div_eq_inv_mul]

/-- **C259** Explicit dynamics does not depend on the frame: with a material whose forces are objective, a body that begins rotated (or
reflected), translated and with an additional uniform velocity `c` has an analysis too, and at all times is where the original body is, rotated,
translated, and moved on by `c` times the time. -/
theorem C259_frame (P : Params) (X : BC.Ctx) (cs : BC.Conditions) (hcs : BC.makeConditions [] = .ok cs) (eval : Eval σ)
    (Q : Matrix (Fin 3) (Fin 3) ℝ) (R : σ → σ → Prop) (hQ : Objective Q R eval) (c d : V3)
    (vecs vecs' : BC.Vecs) (hy : ∀ i, vecs .y i = X.x i + vecs .u i) (hy' : ∀ i, vecs' .y i = X.x i + vecs' .u i)
    (hm : ∀ l, at3 (vecs' .y) l = Q.mulVec (at3 (vecs .y) l) + d) (hv : ∀ l, at3 (vecs' .v) l = Q.mulVec (at3 (vecs .v) l) + c)
    (b b' : σ) (hb : R b b') (s0 : State σ) (hi : initialStep P X cs eval vecs b = .ok s0) (n : Nat) (s : State σ)
    (h : run P X cs eval s0 n = .ok s) :
    ∃ r0 r, initialStep P X cs eval vecs' b' = .ok r0 ∧ run P X cs eval r0 n = .ok r ∧ r.time = s.time ∧ ∀ l,
      at3 (r.vecs .y) l = Q.mulVec (at3 (s.vecs .y) l) + d + (n * P.dt) • c ∧
      at3 (r.vecs .v) l = Q.mulVec (at3 (s.vecs .v) l) + c ∧ at3 r.a l = Q.mulVec (at3 s.a l) := by
  obtain ⟨ht0, w1, f, he, hbd, hfc, ha⟩ := initialStep_ok hi
  obtain ⟨hb0, hf0⟩ := no_conditions hcs
  rw [hb0] at hbd
  rw [hf0] at hfc
  have e1 : vecs = w1 := BC.ok_inj hbd
  have e2 : BC.clearForce w1 = s0.vecs := BC.ok_inj hfc
  obtain ⟨hd, ha⟩ := acceleration_ok ha
  have ha0 : ∀ i, s0.a i = f i / P.density (i / 3) := fun i => by rw [ha, ← e2]; simp [BC.clearForce]
  obtain ⟨d', g, hg, hR, hgf⟩ := hQ d b b' 0 vecs vecs' _ f hb hm he
  obtain ⟨r0, hr0, hrb, hra, hru, hrv, hry⟩ := initial_intro (P := P) (X := X) hcs eval vecs' b' hd d' g hg
  suffices hall : ∀ n s, run P X cs eval s0 n = .ok s → ∃ r, run P X cs eval r0 n = .ok r ∧ r.time = s.time ∧ R s.blocks r.blocks ∧
      (∀ i, s.vecs .y i = X.x i + s.vecs .u i) ∧ (∀ i, r.vecs .y i = X.x i + r.vecs .u i) ∧ ∀ l,
      at3 (r.vecs .y) l = Q.mulVec (at3 (s.vecs .y) l) + d + (n * P.dt) • c ∧
      at3 (r.vecs .v) l = Q.mulVec (at3 (s.vecs .v) l) + c ∧ at3 r.a l = Q.mulVec (at3 s.a l) by
    obtain ⟨r, h1, h2, -, -, -, h3⟩ := hall n s h
    exact ⟨r0, r, hr0, h1, h2, h3⟩
  intro n
  induction n with
  | zero =>
    intro s h
    have := BC.ok_inj h
    subst this
    have su : ∀ t, t ≠ .externalForce → s0.vecs t = vecs t := by
      intro t ht
      rw [← e2, ← e1]
      funext i
      simp [BC.clearForce, ht]
    obtain ⟨ht0', -⟩ := initialStep_ok hr0
    refine ⟨r0, rfl, by rw [ht0, ht0'], by rw [hrb]; exact hR, ?_, ?_, fun l => ?_⟩
    · rw [su .y (by decide), su .u (by decide)]
      exact hy
    · intro i
      rw [hry, hru]
      exact hy' i
    · rw [funext hry, funext hrv, su .y (by decide), su .v (by decide), hm, hv]
      refine ⟨by simp, rfl, ?_⟩
      rw [at3_div hra, at3_div ha0, hgf, Matrix.mulVec_smul]
  | succ n ih =>
    intro s h
    obtain ⟨s1, h1, h2⟩ := run_succ h
    obtain ⟨r1, i1, i2, i3, i4, i5, i6⟩ := ih s1 h1
    obtain ⟨w, f, he, hu, hyw, -, ha, hu', hyy', hv'⟩ := advance_free hcs h2
    obtain ⟨z, hz, hadv⟩ := advance_intro (X := X) hcs eval r1 (n + 1) hd
    have wy : ∀ l, at3 (w .y) l = at3 (s1.vecs .y) l + P.dt • (at3 (s1.vecs .v) l + (P.dt / 2) • at3 s1.a l) := by
      intro l
      funext k
      show w .y _ = s1.vecs .y _ + P.dt * (s1.vecs .v _ + P.dt / 2 * s1.a _)
      rw [hyw, hu, i4]
      ring
    have zy : ∀ l, at3 (z .y) l = at3 (r1.vecs .y) l + P.dt • (at3 (r1.vecs .v) l + (P.dt / 2) • at3 r1.a l) := by
      intro l
      funext k
      show z .y _ = r1.vecs .y _ + P.dt * (r1.vecs .v _ + P.dt / 2 * r1.a _)
      rw [hz, i5]
      ring
    have hrel : ∀ l, at3 (z .y) l = Q.mulVec (at3 (w .y) l) + (d + ((n + 1 : ℕ) * P.dt) • c) := by
      intro l
      obtain ⟨j1, j2, j3⟩ := i6 l
      rw [zy, wy, j1, j2, j3, Matrix.mulVec_add, Matrix.mulVec_smul, Matrix.mulVec_add, Matrix.mulVec_smul]
      push_cast
      module
    obtain ⟨d', g, hg, hR', hgf⟩ := hQ _ s1.blocks r1.blocks (n + 1) w z _ f i3 hrel he
    obtain ⟨r, hr, hrb, hra⟩ := hadv d' g hg
    obtain ⟨w', f', -, hu1, hyw1, -, -, hu1', hyy1, hv1⟩ := advance_free hcs hr
    have hrun : run P X cs eval r0 (n + 1) = .ok r := by
      unfold run
      rw [i1]
      exact hr
    have ry : ∀ i, r.vecs .y i = z .y i := by
      intro i
      rw [hyy1, hyw1, hu1, hz]
    have hacc : ∀ l, at3 r.a l = Q.mulVec (at3 s.a l) := by
      intro l
      rw [at3_div hra, at3_div ha, hgf, Matrix.mulVec_smul]
    have hrt : r1.time = s1.time := i2
    refine ⟨r, hrun, ?_, by rw [hrb]; exact hR', fun i => by rw [hyy', hyw, hu'], fun i => by rw [hyy1, hyw1, hu1'], fun l => ⟨?_, ?_, hacc l⟩⟩
    · rw [run_time (initialStep_ok hr0).1 (n + 1) r hrun, run_time ht0 (n + 1) s h]
    · rw [funext ry, hrel, funext hyy', add_assoc]
    · have v1 : at3 (r.vecs .v) l = at3 (r1.vecs .v) l + (P.dt / 2) • at3 r1.a l + (P.dt / 2) • at3 r.a l := by
        funext k
        exact hv1 _
      have v2 : at3 (s.vecs .v) l = at3 (s1.vecs .v) l + (P.dt / 2) • at3 s1.a l + (P.dt / 2) • at3 s.a l := by
        funext k
        exact hv' _
      obtain ⟨-, j2, j3⟩ := i6 l
      rw [v1, v2, j2, j3, hacc, Matrix.mulVec_add, Matrix.mulVec_add, Matrix.mulVec_smul, Matrix.mulVec_smul]
      module

/-- Two points joined by a spring. -/
def springEval : Eval Unit := fun _ _ w => .ok ((), fun i =>
  if i / 3 = 0 then w .y (3 + i % 3) - w .y (i % 3) else if i / 3 = 1 then w .y (i % 3) - w .y (3 + i % 3) else 0)

theorem springEval_objective (Q : Matrix (Fin 3) (Fin 3) ℝ) : Objective Q (fun _ _ => True) springEval := by
  intro c b d n w z b' f _ hz he
  have hf := (Prod.ext_iff.1 (Outcome.ok.inj he)).2
  simp only at hf
  have key : ∀ (w : BC.Vecs) l, at3 (fun i => if i / 3 = 0 then w .y (3 + i % 3) - w .y (i % 3) else
      if i / 3 = 1 then w .y (i % 3) - w .y (3 + i % 3) else 0) l =
      if l = 0 then at3 (w .y) 1 - at3 (w .y) 0 else if l = 1 then at3 (w .y) 0 - at3 (w .y) 1 else 0 := by
    intro w l
    funext k
    have e1 : (l * 3 + (k : Nat)) / 3 = l := by have := k.isLt; omega
    have e2 : (l * 3 + (k : Nat)) % 3 = k := by have := k.isLt; omega
    simp only [at3, e1, e2]
    split
    · simp [at3]
    · split
      · simp [at3]
      · rfl
  refine ⟨(), _, rfl, trivial, fun l => ?_⟩
  rw [← hf, key, key, hz, hz]
  split
  · rw [Matrix.mulVec_sub]; abel
  · split
    · rw [Matrix.mulVec_sub]; abel
    · rw [Matrix.mulVec_zero]

/-- The spring, turned by a right angle about the third axis and sent off along the first, meets the hypotheses. -/
example (vecs : BC.Vecs) (hy : ∀ i, vecs .y i = barCtx.x i + vecs .u i) : ∃ (Q : Matrix (Fin 3) (Fin 3) ℝ) (c d : V3) (vecs' : BC.Vecs) (s0 s : State Unit),
    Q ≠ 1 ∧ c ≠ 0 ∧ Objective Q (fun _ _ => True) springEval ∧ (∀ i, vecs' .y i = barCtx.x i + vecs' .u i) ∧
    (∀ l, at3 (vecs' .y) l = Q.mulVec (at3 (vecs .y) l) + d) ∧ (∀ l, at3 (vecs' .v) l = Q.mulVec (at3 (vecs .v) l) + c) ∧
    initialStep (barParams (1 / 10)) barCtx {} springEval vecs () = .ok s0 ∧ run (barParams (1 / 10)) barCtx {} springEval s0 9 = .ok s := by
  obtain ⟨⟨s0, h1⟩, h2⟩ := explicit_defined (barParams (1 / 10)) barCtx {} springEval (by intro c hc; simp at hc) (by intro c hc; simp at hc)
    (fun _ _ => by simp [barParams]) (fun _ _ _ => ⟨_, _, rfl⟩) vecs ()
  obtain ⟨s, hs⟩ := h2 s0 9
  have flat : ∀ (g : Nat → V3) l, at3 (fun i => g (i / 3) ⟨i % 3, by omega⟩) l = g l := by
    intro g l
    funext k
    have e1 : (l * 3 + (k : Nat)) / 3 = l := by have := k.isLt; omega
    have e2 : (⟨(l * 3 + (k : Nat)) % 3, by omega⟩ : Fin 3) = k := by
      apply Fin.ext; have := k.isLt; show (l * 3 + (k : Nat)) % 3 = k; omega
    simp only [at3, e1, e2]
  refine ⟨!![0, -1, 0; 1, 0, 0; 0, 0, 1], ![1, 0, 0], ![0, 5, 0], fun t i =>
    if t = .y then (!![0, -1, 0; 1, 0, 0; 0, 0, 1].mulVec (at3 (vecs .y) (i / 3)) + ![0, 5, 0] : V3) ⟨i % 3, by omega⟩
    else if t = .v then (!![0, -1, 0; 1, 0, 0; 0, 0, 1].mulVec (at3 (vecs .v) (i / 3)) + ![1, 0, 0] : V3) ⟨i % 3, by omega⟩
    else (!![0, -1, 0; 1, 0, 0; 0, 0, 1].mulVec (at3 (vecs .y) (i / 3)) + ![0, 5, 0] : V3) ⟨i % 3, by omega⟩ - barCtx.x i, s0, s, ?_, ?_,
    springEval_objective _, fun i => by simp, fun l => ?_, fun l => ?_, h1, hs⟩
  · intro h
    have := congrFun (congrFun h 0) 0
    simp at this
  · intro h
    have := congrFun h 0
    simp at this
  · simp only [if_true]
    exact flat (fun l => !![0, -1, 0; 1, 0, 0; 0, 0, 1].mulVec (at3 (vecs .y) l) + ![0, 5, 0]) l
  · simp only [reduceCtorEq, if_false, if_true]
    exact flat (fun l => !![0, -1, 0; 1, 0, 0; 0, 0, 1].mulVec (at3 (vecs .v) l) + ![1, 0, 0]) l

/-- Explicit evaluation of the state-based elastic material. -/
def elasticEval (C : Config) (K mu : ℝ) (n : Nat) (l : List Nat) : Eval Unit := fun _ _ w =>
  match elasticMaterial { C with y := at3 (w .y) } K mu n l (fun _ => 0) with
  | .ok r => .ok ((), fun i => r.2 (i / 3) ⟨i % 3, by omega⟩)
  | .fail e => .fail e
  | .ub => .ub

/-- **C259** The state-based elastic material is objective in this sense, for every rotation and reflection. -/
theorem C259_elastic (C : Config) (K mu : ℝ) (n : Nat) (nl : List Nat) (Q : Matrix (Fin 3) (Fin 3) ℝ) (hQ : Q.transpose * Q = 1) :
    Objective Q (fun _ _ => True) (elasticEval C K mu n nl) := by
  intro c b d m w z b' f _ hz he
  have hy : at3 (z .y) = moved Q c (at3 (w .y)) := funext hz
  unfold elasticEval at he ⊢
  have h19 := C19_elastic { C with y := at3 (w .y) } Q hQ c K mu n nl (fun _ => 0)
  rw [hy]
  cases hm : elasticMaterial { C with y := at3 (w .y) } K mu n nl (fun _ => 0) with
  | ok r =>
    rw [hm] at h19 he
    simp only at h19
    rw [h19]
    refine ⟨(), _, rfl, trivial, fun l => ?_⟩
    have := (Prod.ext_iff.1 (Outcome.ok.inj he)).2
    simp only at this
    have e1 : ∀ k : Fin 3, (l * 3 + (k : Nat)) / 3 = l := fun k => by have := k.isLt; omega
    have e2 : ∀ k : Fin 3, (⟨(l * 3 + (k : Nat)) % 3, by omega⟩ : Fin 3) = k := fun k => by
      apply Fin.ext; have := k.isLt; show (l * 3 + (k : Nat)) % 3 = k; omega
    have ef : at3 f l = r.2 l := by
      rw [← this]
      funext k
      simp only [at3, e1, e2]
    rw [ef]
    funext k
    simp only [at3, e1, e2]
  | fail e => rw [hm] at he; cases he
  | ub => rw [hm] at he; cases he

/-- A quarter turn is a rotation. -/
example : (!![0, -1, 0; 1, 0, 0; 0, 0, 1] : Matrix (Fin 3) (Fin 3) ℝ).transpose * !![0, -1, 0; 1, 0, 0; 0, 0, 1] = 1 := by
  ext i j
  fin_cases i <;> fin_cases j <;> simp [Matrix.mul_apply, Fin.sum_univ_three]

end Verif.Conserve
