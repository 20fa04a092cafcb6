import Verif.Tangent.Demo
import Verif.Implicit.Lemmas
import Verif.QuasiStatic.Demo

/-!
# The matrix of the Newton iteration in implicit dynamics (C89)
-/

noncomputable section

namespace Verif.Tangent

open Verif Verif.Neigh Verif.Mech Verif.Implicit
open scoped Classical

/-- Without kinematic conditions the residual is as computed. -/
theorem zeroed_free {E : QuasiStatic.Env} (hb : E.cs.boundary = []) {f r : Nat → ℝ}
    (h : QuasiStatic.zeroed E f = .ok r) {i : Nat} (hi : i < E.length) : r i = f i := by
  unfold QuasiStatic.zeroed at h
  rw [hb] at h
  obtain ⟨l, h1, h⟩ := Outcome.bind_eq_ok.1 h
  have h1 : Outcome.ok ((List.range E.length).map f) = Outcome.ok l := h1
  cases h1
  cases h
  simp [hi]

theorem evaluate_free {σ ω : Type} {P : Params} {E : QuasiStatic.Env} {S : Solver σ ω} {N : σ} {work : ω}
    {tc tp : ℝ} {t : Trial} {i : Iter ω} (hb : E.cs.boundary = []) (hf : E.cs.force = [])
    (h : evaluate P E S N work tc tp t = .ok i) : (∃ w, S.force N work t.vecs t.a = .ok (w, i.force)) ∧
    ∀ R < E.length, i.residual R = P.beta * (P.dt * P.dt) * (P.density (R / 3) * t.a R - i.force R) := by
  unfold evaluate at h
  obtain ⟨p, h1, h⟩ := Outcome.bind_eq_ok.1 h
  obtain ⟨w, h2, h⟩ := Outcome.bind_eq_ok.1 h
  obtain ⟨r, h3, h⟩ := Outcome.bind_eq_ok.1 h
  cases h
  rw [hf] at h2
  have h2 : Outcome.ok (BC.clearForce t.vecs) = Outcome.ok w := h2
  cases h2
  refine ⟨⟨p.1, h1⟩, fun R hR => ?_⟩
  show r R = _
  rw [zeroed_free hb h3 hR]
  simp [BC.clearForce]

/-- Setting of C89: no loads or kinematic conditions; the force of the solver is the sum over the neighborhoods
of a material that does not depend on velocities; the tangent is assembled at the current displacement, and
the residual is evaluated with the displacement of one component changed by `eps` and by `-eps`. -/
structure Linearization {σ ω : Type} (P : Params) (E : QuasiStatic.Env) (S : Solver σ ω) (N : σ) (work : ω)
    (K : Kernel) (F : Fields) (parts : List Part) (eps : ℝ) (C : Nat) (A : Sparse) (i1 i0 : Iter ω) : Prop where
  valid : ∀ p ∈ parts, p.Valid
  nodup : ∀ h ∈ allHoods parts, h.Nodup
  noBoundary : E.cs.boundary = []
  noForce : E.cs.force = []
  rate : ∀ g y v v', K g y v = K g y v'
  force : ∀ vecs a w f, S.force N work vecs a = .ok (w, f) →
    internalForce K (vecs .y) (vecs .v) (allHoods parts) = .ok f
  assembled : ∃ R Q scratch, assemble (settings eps P.dt) .full K Q F scratch (parts.map Part.proc)
    (Sparse.zero R) = .ok A
  residuals : ∃ u u2 v2 w tc tp t1 t0, (F.y = fun i => E.C.x i + u i) ∧
    place P E u2 v2 w (bump u C eps) = .ok t1 ∧ evaluate P E S N work tc tp t1 = .ok i1 ∧
    place P E u2 v2 w (bump u C (-eps)) = .ok t0 ∧ evaluate P E S N work tc tp t0 = .ok i0

theorem internalForce_rate {K : Kernel} (hr : ∀ g y v v', K g y v = K g y v') (Y V V' : Nat → ℝ) :
    ∀ hs, internalForce K Y V hs = internalForce K Y V' hs
  | [] => rfl
  | h :: hs => by
    unfold internalForce
    rw [hr h _ (gather 3 h V) (gather 3 h V'), internalForce_rate hr Y V V' hs]

/-- The matrix of the linear problem and the difference quotient of the residual differ by the volume with
which the stiffness is multiplied. -/
theorem newton_matrix {σ ω : Type} {P : Params} {E : QuasiStatic.Env} {S : Solver σ ω} {N : σ} {work : ω}
    {K : Kernel} {F : Fields} {parts : List Part} {eps : ℝ} {C : Nat} {A : Sparse} {i1 i0 : Iter ω}
    (L : Linearization P E S N work K F parts eps C A i1 i0) (he : eps ≠ 0) {R : Nat} (hR : R < E.length) :
    (implicitTangent P.beta P.dt P.density A).val R C - (i1.residual R - i0.residual R) / (2 * eps) =
      P.beta * P.dt * P.dt * (1 - F.vol (R / 3)) * ((i1.force R - i0.force R) / (2 * eps)) := by
  obtain ⟨Rp, Q, scratch, hA⟩ := L.assembled
  obtain ⟨u, u2, v2, w, tc, tp, t1, t0, hy, p1, e1, p0, e0⟩ := L.residuals
  obtain ⟨c1, cu1, _⟩ := place_ok p1
  obtain ⟨c0, cu0, _⟩ := place_ok p0
  obtain ⟨⟨w1, f1⟩, r1⟩ := evaluate_free L.noBoundary L.noForce e1
  obtain ⟨⟨w0, f0⟩, r0⟩ := evaluate_free L.noBoundary L.noForce e0
  have y1 : t1.vecs .y = bump F.y C eps := by
    funext i
    rw [c1.y, cu1, hy]
    unfold bump
    by_cases hi : i = C
    · subst hi
      simp only [Function.update_self]
      ring
    · simp only [Function.update_of_ne hi]
  have y0 : t0.vecs .y = bump F.y C (-eps) := by
    funext i
    rw [c0.y, cu0, hy]
    unfold bump
    by_cases hi : i = C
    · subst hi
      simp only [Function.update_self]
      ring
    · simp only [Function.update_of_ne hi]
  have g1 := L.force _ _ _ _ f1
  have g0 := L.force _ _ _ _ f0
  rw [y1] at g1
  rw [y0] at g0
  rw [internalForce_rate L.rate _ _ (bump F.v (3 * (C / 3) + C % 3) (eps / P.dt))] at g1
  rw [internalForce_rate L.rate _ _ (bump F.v (3 * (C / 3) + C % 3) (-(eps / P.dt)))] at g0
  have key := C88_central_difference (settings eps P.dt) (settings_mech _ _) K Q F scratch parts L.valid L.nodup
    Rp A hA (R / 3) (C / 3) (R % 3) (C % 3) (by omega) (by omega) i1.force i0.force
    (by rw [Nat.div_add_mod] at g1 ⊢; exact g1) (by rw [Nat.div_add_mod] at g0 ⊢; exact g0)
  rw [Nat.div_add_mod, Nat.div_add_mod] at key
  rw [r1 R hR, r0 R hR]
  unfold implicitTangent
  simp only
  rw [key, c1.a, c0.a, cu1, cu0]
  have hz := c1.nz
  have hb : P.beta ≠ 0 := fun h => hz (by rw [h]; ring)
  have hd : P.dt ≠ 0 := fun h => hz (by rw [h]; ring)
  have he' : (settings eps P.dt).epsilon = eps := rfl
  rw [he']
  unfold bump
  by_cases hRC : R = C
  · subst hRC
    simp only [Function.update_self, if_pos]
    field_simp
    ring
  · simp only [Function.update_of_ne hRC, if_neg hRC]
    field_simp
    ring

/-- **C89**, for points of volume one: the matrix of the linear problem is the difference quotient of the
residual.  What is missing is the case of other volumes, for which this is false, see
`C89_not_the_derivative`. -/
theorem C89_newton_matrix_partial {σ ω : Type} (P : Params) (E : QuasiStatic.Env) (S : Solver σ ω) (N : σ) (work : ω)
    (K : Kernel) (F : Fields) (parts : List Part) (eps : ℝ) (C : Nat) (A : Sparse) (i1 i0 : Iter ω)
    (L : Linearization P E S N work K F parts eps C A i1 i0) (he : eps ≠ 0) (R : Nat) (hR : R < E.length)
    (hv : F.vol (R / 3) = 1) :
    (implicitTangent P.beta P.dt P.density A).val R C = (i1.residual R - i0.residual R) / (2 * eps) := by
  have := newton_matrix L he hR
  rw [hv] at this
  linarith

/-! ### The counterexample -/

/-- Two points, no conditions. -/
def pairEnv : QuasiStatic.Env where
  C := { owned := [0, 1], sets := fun _ => none, x := fun _ => 0 }
  cs := {}
  dofs := BC.dispOnly
  volume := fun _ => 1

/-- Steps of length one, average acceleration. -/
def pairParams : Params where
  timeInitial := 0
  timeFinal := 3
  dt := 1
  beta := 1 / 4
  gamma := 1 / 2
  absoluteTolerance := 1 / 1000
  maxSolverIterations := 10
  density := fun _ => 1

/-- The force of the springs. -/
def pairSolver (vol : Nat → ℝ) : Solver Unit Unit where
  force := fun _ _ vecs _ => (internalForce (spring vol) (vecs .y) (vecs .v) (allHoods pair)) >>= fun f => .ok ((), f)
  direction := fun _ _ _ _ r => .ok ((), r)
  shift := fun _ _ => ((), ())

theorem pair_evaluate (vol : Nat → ℝ) (t : Trial) :
    ∃ i, evaluate pairParams pairEnv (pairSolver vol) () () 0 0 t = .ok i := by
  obtain ⟨f, hf⟩ := spring_force vol (t.vecs .y) (t.vecs .v) (allHoods pair)
  have h1 : (pairSolver vol).force () () t.vecs t.a = .ok ((), f) := by
    show (internalForce (spring vol) _ _ _ >>= _) = _
    rw [hf, Outcome.ok_bind]
  unfold evaluate
  rw [h1, Outcome.ok_bind]
  exact ⟨_, rfl⟩

/-- A linearization of the two points. -/
theorem pair_linearization (c : ℝ) : ∃ A i1 i0, Linearization pairParams pairEnv (pairSolver fun _ => c) () ()
    (spring fun _ => c) ⟨fun _ => 0, fun _ => 0, fun _ => 0, fun _ => c⟩ pair (1 / 1000) 3 A i1 i0 := by
  obtain ⟨R, A, hR, hA, e⟩ := pair_tangent ⟨fun _ => 0, fun _ => 0, fun _ => 0, fun _ => c⟩ (1 / 1000) 1
    (by norm_num) (by norm_num)
  have hz : ¬ pairParams.beta * (pairParams.dt * pairParams.dt) = 0 := by norm_num [pairParams]
  obtain ⟨t1, p1⟩ : ∃ t1, place pairParams pairEnv (fun _ => 0) (fun _ => 0) (fun _ _ => 0)
      (bump (fun _ => 0) 3 (1 / 1000)) = .ok t1 := by
    unfold place; rw [if_neg hz]; exact ⟨_, rfl⟩
  obtain ⟨t0, p0⟩ : ∃ t0, place pairParams pairEnv (fun _ => 0) (fun _ => 0) (fun _ _ => 0)
      (bump (fun _ => 0) 3 (-(1 / 1000))) = .ok t0 := by
    unfold place; rw [if_neg hz]; exact ⟨_, rfl⟩
  obtain ⟨i1, e1⟩ := pair_evaluate (fun _ => c) t1
  obtain ⟨i0, e0⟩ := pair_evaluate (fun _ => c) t0
  refine ⟨A, i1, i0, pair_valid, pair_nodup, rfl, rfl, fun _ _ _ _ => rfl, ?_, ⟨R, _, _, hA⟩,
    fun _ => 0, fun _ => 0, fun _ => 0, fun _ _ => 0, 0, 0, t1, t0, ?_, p1, e1, p0, e0⟩
  · intro vecs a w f h
    have h : (internalForce (spring fun _ => c) (vecs .y) (vecs .v) (allHoods pair) >>=
      fun f => Outcome.ok ((), f)) = .ok (w, f) := h
    obtain ⟨g, h1, h⟩ := Outcome.bind_eq_ok.1 h
    cases h
    exact h1
  · funext i
    show (0 : ℝ) = 0 + 0
    ring

/-- **C89** is false: for two points of volume two, joined by a spring, the matrix of the linear problem is not
the difference quotient of the residual. -/
theorem C89_not_the_derivative : ∃ (A : Sparse) (i1 i0 : Iter Unit),
    Linearization pairParams pairEnv (pairSolver fun _ => 2) () () (spring fun _ => 2)
      ⟨fun _ => 0, fun _ => 0, fun _ => 0, fun _ => 2⟩ pair (1 / 1000) 3 A i1 i0 ∧
    (implicitTangent pairParams.beta pairParams.dt pairParams.density A).val 0 3 ≠
      (i1.residual 0 - i0.residual 0) / (2 * (1 / 1000)) := by
  obtain ⟨A, i1, i0, L⟩ := pair_linearization 2
  refine ⟨A, i1, i0, L, fun h => ?_⟩
  have key := newton_matrix L (by norm_num) (R := 0) (by decide)
  rw [h, sub_self] at key
  obtain ⟨u, u2, v2, w, tc, tp, t1, t0, hy, p1, e1, p0, e0⟩ := L.residuals
  obtain ⟨⟨w1, f1⟩, _⟩ := evaluate_free L.noBoundary L.noForce e1
  obtain ⟨⟨w0, f0⟩, _⟩ := evaluate_free L.noBoundary L.noForce e0
  have g1 := pair_force _ _ _ _ (L.force _ _ _ _ f1)
  have g0 := pair_force _ _ _ _ (L.force _ _ _ _ f0)
  obtain ⟨c1, cu1, _⟩ := place_ok p1
  obtain ⟨c0, cu0, _⟩ := place_ok p0
  rw [g1, g0, c1.y, c1.y, c0.y, c0.y, cu1, cu0] at key
  unfold bump at key
  simp only [Function.update_self, Function.update_of_ne (show (0 : Nat) ≠ 3 by omega)] at key
  norm_num [pairParams] at key
  ring_nf at key
  norm_num at key

/-- The hypotheses of C89 are met. -/
example : ∃ A i1 i0, Linearization pairParams pairEnv (pairSolver fun _ => 1) () () (spring fun _ => 1)
    ⟨fun _ => 0, fun _ => 0, fun _ => 0, fun _ => 1⟩ pair (1 / 1000) 3 A i1 i0 := pair_linearization 1

end Verif.Tangent
