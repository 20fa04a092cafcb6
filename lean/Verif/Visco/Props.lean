import Verif.Visco.Lemmas
import Verif.Mech.Defined
import Verif.Fad.YieldProps

/-! C252 to C254: the viscoelastic material follows its rate equation exactly, relaxes exponentially when held, and is bounded by two
elastic materials. -/

noncomputable section

namespace Verif.Visco

open Verif Verif.Neigh Verif.Mech Verif.Energy

/-! ### C252 -/

/-- **C252** Within a step the back extension of each bond is the exact solution of its rate equation, with the deviatoric extension
going linearly from its old to its new value: the equation has a solution that begins with the old back extension and ends with the new
one, and every solution that begins with the old one ends with the new one. -/
theorem C252_exact (C : Config) (P : ViscoConst) (dt : ℝ) (hdt : 0 < dt) (nbs : List (List Nat)) (s : ViscoState)
    (th stale theta edb : Nat → ℝ) (F : Nat → V3)
    (h : viscoMaterial C P dt s.y s.theta s.edb nbs.length (encode nbs) th stale = .ok (theta, edb, F))
    (p t j : Nat) (hb : IsNeighbor nbs p t j) (a c : ℝ)
    (ha : a = viscoExtension C (C.damage (bondPos nbs p t)) s.y s.theta p j)
    (hc : c = viscoExtension C (C.damage (bondPos nbs p t)) C.y theta p j) :
    (∃ E, Lags P.tauB dt a c E ∧ E 0 = s.edb (bondPos nbs p t) ∧ E dt = edb (bondPos nbs p t)) ∧
    ∀ E, Lags P.tauB dt a c E → E 0 = s.edb (bondPos nbs p t) → E dt = edb (bondPos nbs p t) := by
  obtain ⟨-, -, ht, h1, -⟩ := parts h
  obtain ⟨-, -, h2⟩ := h1 _ (bond_mem hb)
  have hend : path P.tauB dt a c (s.edb (bondPos nbs p t)) dt = edb (bondPos nbs p t) := by
    rw [path_end hdt.ne', ha, hc]
    exact h2.symm
  have hl : Lags P.tauB dt a c (path P.tauB dt a c (s.edb (bondPos nbs p t))) := fun u _ => path_lags ht _ _ _ u
  refine ⟨⟨_, hl, path_zero .., hend⟩, fun E hE h0 => ?_⟩
  rw [lags_unique ht hdt.le hE hl (by rw [h0, path_zero]), hend]

/-- **C252** Subdividing a step along a linear path changes nothing: if at the intermediate configuration the deviatoric extension of
every bond lies on the line between its old and new values, two steps lead to the same back extensions and the same forces as one. -/
theorem C252_split (C C' : Config) (P : ViscoConst) (dt dt' : ℝ) (nbs : List (List Nat)) (s : ViscoState)
    (hx : C.x = C'.x) (hd : C.damage = C'.damage)
    (th th' th'' stale stale' stale'' theta theta' theta'' edb edb' edb'' : Nat → ℝ) (F F' F'' : Nat → V3)
    (h1 : viscoMaterial C P dt s.y s.theta s.edb nbs.length (encode nbs) th stale = .ok (theta, edb, F))
    (h2 : viscoMaterial C' P dt' C.y theta edb nbs.length (encode nbs) th' stale' = .ok (theta', edb', F'))
    (h : viscoMaterial C' P (dt + dt') s.y s.theta s.edb nbs.length (encode nbs) th'' stale'' = .ok (theta'', edb'', F''))
    (hlin : ∀ p t j, IsNeighbor nbs p t j →
      viscoExtension C (C.damage (bondPos nbs p t)) C.y theta p j =
        viscoExtension C (C.damage (bondPos nbs p t)) s.y s.theta p j + dt / (dt + dt') *
          (viscoExtension C (C.damage (bondPos nbs p t)) C'.y theta' p j -
            viscoExtension C (C.damage (bondPos nbs p t)) s.y s.theta p j)) :
    (∀ p t j, IsNeighbor nbs p t j → edb' (bondPos nbs p t) = edb'' (bondPos nbs p t)) ∧ F' = F'' := by
  obtain ⟨-, n1, ht, a1, -⟩ := parts h1
  obtain ⟨d2, n2, -, a2, f2⟩ := parts h2
  obtain ⟨d3, n3, -, a3, f3⟩ := parts h
  have hth : ∀ p < nbs.length, theta' p = theta'' p := fun p hp => dilatation_same d2 d3 hp
  have hed : ∀ y th b, viscoEd C y th b = viscoEd C' y th b := by
    intro y th b
    unfold viscoEd Config.zeta
    rw [hd, hx]
  have key : ∀ b ∈ bondsOf nbs, edb' b.b = edb'' b.b := by
    intro b hb
    obtain ⟨-, -, e1⟩ := a1 b hb
    obtain ⟨-, -, e2⟩ := a2 b hb
    obtain ⟨-, -, e3⟩ := a3 b hb
    obtain ⟨t, hn, hpos⟩ := bondsOf_pos hb
    have hl := hlin b.i t b.j hn
    rw [← hpos] at hl
    have hl : viscoEd C C.y theta b = viscoEd C s.y s.theta b + dt / (dt + dt') *
        (viscoEd C C'.y theta' b - viscoEd C s.y s.theta b) := hl
    rw [← hed, ← hed, e1] at e2
    rw [← hed, ← hed, ← ed_congr (hth b.i (bond_owned hb))] at e3
    rw [e2, e3]
    have hexp : Real.exp (-((dt + dt') / P.tauB)) = Real.exp (-(dt / P.tauB)) * Real.exp (-(dt' / P.tauB)) := by
      rw [← Real.exp_add]
      congr 1
      ring
    rw [hl, hexp]
    generalize viscoEd C s.y s.theta b = a
    generalize viscoEd C C'.y theta' b = c
    generalize s.edb b.b = e0
    unfold viscoBack gain
    rw [hexp]
    generalize Real.exp (-(dt / P.tauB)) = D
    generalize Real.exp (-(dt' / P.tauB)) = D'
    field_simp
    ring
  refine ⟨fun p t j hb => key _ (bond_mem hb), funext fun k => ?_⟩
  rw [f2, f3]
  refine total_congr (fun b hb => ?_) k
  rw [key b hb, ed_congr (hth b.i (bond_owned hb)), tension_congr (hth b.i (bond_owned hb))]

example : ∃ theta edb F theta' edb' F' theta'' edb'' F'',
    viscoMaterial demo ⟨1, 1, 1 / 2, 3⟩ 1 demo.y (fun _ => 0) 0 demoNbs.length (encode demoNbs) 0 0 = .ok (theta, edb, F) ∧
    viscoMaterial demo ⟨1, 1, 1 / 2, 3⟩ 2 demo.y theta edb demoNbs.length (encode demoNbs) 0 0 = .ok (theta', edb', F') ∧
    viscoMaterial demo ⟨1, 1, 1 / 2, 3⟩ (1 + 2) demo.y theta 0 demoNbs.length (encode demoNbs) 0 0 = .ok (theta'', edb'', F'') ∧
    IsNeighbor demoNbs 1 1 2 := by
  obtain ⟨theta, edb, F, h1⟩ := visco_defined (C := demo) (P := ⟨1, 1, 1 / 2, 3⟩) (dt := 1) demo_proper
    (by norm_num) (by norm_num) demo.y (fun _ => 0) 0 (0 : Nat → ℝ) 0
  obtain ⟨theta', edb', F', h2⟩ := visco_defined (C := demo) (P := ⟨1, 1, 1 / 2, 3⟩) (dt := 2) demo_proper
    (by norm_num) (by norm_num) demo.y theta edb (0 : Nat → ℝ) 0
  obtain ⟨theta'', edb'', F'', h3⟩ := visco_defined (C := demo) (P := ⟨1, 1, 1 / 2, 3⟩) (dt := 1 + 2) demo_proper
    (by norm_num) (by norm_num) demo.y theta 0 (0 : Nat → ℝ) 0
  exact ⟨_, _, _, _, _, _, _, _, _, h1, h2, h3, [0, 2], rfl, rfl⟩

/-- A held body is on a linear path, so it meets the hypotheses of `C252_split`. -/
example (theta edb F theta' edb' F' theta'' edb'' F'')
    (h1 : viscoMaterial demo ⟨1, 1, 1 / 2, 3⟩ 1 demo.y theta 0 demoNbs.length (encode demoNbs) theta 0 = .ok (theta, edb, F))
    (h2 : viscoMaterial demo ⟨1, 1, 1 / 2, 3⟩ 2 demo.y theta edb demoNbs.length (encode demoNbs) theta 0 = .ok (theta', edb', F'))
    (h3 : viscoMaterial demo ⟨1, 1, 1 / 2, 3⟩ (1 + 2) demo.y theta 0 demoNbs.length (encode demoNbs) theta 0 =
      .ok (theta'', edb'', F'')) : F' = F'' := by
  refine (C252_split demo demo ⟨1, 1, 1 / 2, 3⟩ 1 2 demoNbs ⟨demo.y, theta, 0⟩ rfl rfl _ _ _ _ _ _ theta theta' theta'' edb edb' edb''
    F F' F'' h1 h2 h3 fun p t j hb => ?_).2
  have hp : p < demoNbs.length := by
    obtain ⟨ns, h, -⟩ := hb
    exact (List.getElem?_eq_some_iff.1 h).1
  have : theta' p = theta p := dilatation_same (parts h2).1 (parts h1).1 hp
  unfold viscoExtension
  rw [this]
  ring

/-! ### C253 -/

/-- What holds while a body is held. -/
theorem held_parts {C : Config} {P : ViscoConst} {nbs : List (List Nat)} {dt : ℝ} {s0 s : ViscoState}
    {th stale theta edb : Nat → ℝ} {F F' : Nat → V3} {T : ℝ}
    (h0 : viscoMaterial C P dt s0.y s0.theta s0.edb nbs.length (encode nbs) th stale = .ok (theta, edb, F))
    (h : Held C P nbs ⟨C.y, theta, edb⟩ F T s F') :
    s.y = C.y ∧ (∀ p < nbs.length, s.theta p = theta p) ∧ (∀ b ∈ bondsOf nbs, s.edb b.b =
      viscoEd C C.y theta b + (edb b.b - viscoEd C C.y theta b) * Real.exp (-(T / P.tauB))) ∧
    ∀ k, F' k = total C nbs (fun b => pairTension C P theta (viscoEd C C.y theta b) (s.edb b.b) b) k := by
  obtain ⟨d0, -, ht, -, f0⟩ := parts h0
  induction h with
  | start => exact ⟨rfl, fun _ _ => rfl, fun b _ => by simp, f0⟩
  | @step T s' F' dt' th' stale' theta' edb' F'' _ _ h2 ih =>
    obtain ⟨i1, i2, i3, -⟩ := ih
    obtain ⟨d, -, -, a, f⟩ := parts h2
    have hth : ∀ p < nbs.length, theta' p = theta p := fun p hp => dilatation_same d d0 hp
    refine ⟨rfl, hth, fun b hb => ?_, fun k => ?_⟩
    · obtain ⟨-, -, e⟩ := a b hb
      rw [i1, ed_congr (hth b.i (bond_owned hb)), ed_congr (i2 b.i (bond_owned hb)), i3 b hb] at e
      show edb' b.b = _
      rw [e]
      have hexp : Real.exp (-((T + dt') / P.tauB)) = Real.exp (-(T / P.tauB)) * Real.exp (-(dt' / P.tauB)) := by
        rw [← Real.exp_add]
        congr 1
        ring
      rw [hexp]
      unfold viscoBack
      ring
    · rw [f]
      refine total_congr (fun b hb => ?_) k
      rw [ed_congr (hth b.i (bond_owned hb)), tension_congr (hth b.i (bond_owned hb))]

/-- **C253** While a body is held its back extensions approach the deviatoric extensions exponentially with the relaxation time: after
the time `T`, whatever the steps, the difference is the one at the beginning times `exp (-T/τ)`. -/
theorem C253_relaxes (C : Config) (P : ViscoConst) (nbs : List (List Nat)) (dt : ℝ) (s0 s : ViscoState)
    (th stale theta edb : Nat → ℝ) (F F' : Nat → V3) (T : ℝ)
    (h0 : viscoMaterial C P dt s0.y s0.theta s0.edb nbs.length (encode nbs) th stale = .ok (theta, edb, F))
    (h : Held C P nbs ⟨C.y, theta, edb⟩ F T s F') (p t j : Nat) (hb : IsNeighbor nbs p t j) (e : ℝ)
    (he : e = viscoExtension C (C.damage (bondPos nbs p t)) C.y theta p j) :
    s.edb (bondPos nbs p t) - e = (edb (bondPos nbs p t) - e) * Real.exp (-(T / P.tauB)) := by
  obtain ⟨-, -, h3, -⟩ := held_parts h0 h
  have := h3 _ (bond_mem hb)
  simp only at this
  have e1 : viscoEd C C.y theta ⟨p, j, bondPos nbs p t⟩ = e := he.symm
  rw [e1] at this
  rw [this]
  ring

/-- **C253** What a held body has become depends on the time it was held, not on the steps: two ways of dividing the same time give the
same back extensions and the same forces. -/
theorem C253_steps (C : Config) (P : ViscoConst) (nbs : List (List Nat)) (dt : ℝ) (s0 s s' : ViscoState)
    (th stale theta edb : Nat → ℝ) (F F' F'' : Nat → V3) (T : ℝ)
    (h0 : viscoMaterial C P dt s0.y s0.theta s0.edb nbs.length (encode nbs) th stale = .ok (theta, edb, F))
    (h : Held C P nbs ⟨C.y, theta, edb⟩ F T s F') (h' : Held C P nbs ⟨C.y, theta, edb⟩ F T s' F'') :
    (∀ p t j, IsNeighbor nbs p t j → s.edb (bondPos nbs p t) = s'.edb (bondPos nbs p t)) ∧ F' = F'' := by
  obtain ⟨-, -, a3, a4⟩ := held_parts h0 h
  obtain ⟨-, -, b3, b4⟩ := held_parts h0 h'
  refine ⟨fun p t j hb => ?_, funext fun k => ?_⟩
  · rw [a3 _ (bond_mem hb), b3 _ (bond_mem hb)]
  · rw [a4, b4]
    exact total_congr (fun b hb => by rw [a3 b hb, b3 b hb]) k

/-- The demonstration body, deformed within one step and then held for one step of length 2 or two steps of length 1. -/
theorem demo_held : ∃ theta edb F s s' F' F'',
    viscoMaterial demo ⟨1, 1, 1 / 2, 3⟩ 1 demo.x (fun _ => 0) 0 demoNbs.length (encode demoNbs) 0 0 = .ok (theta, edb, F) ∧
    Held demo ⟨1, 1, 1 / 2, 3⟩ demoNbs ⟨demo.y, theta, edb⟩ F (0 + 2) s F' ∧
    Held demo ⟨1, 1, 1 / 2, 3⟩ demoNbs ⟨demo.y, theta, edb⟩ F (0 + 1 + 1) s' F'' := by
  obtain ⟨theta, edb, F, h1⟩ := visco_defined (C := demo) (P := ⟨1, 1, 1 / 2, 3⟩) (dt := 1) demo_proper
    (by norm_num) (by norm_num) demo.x (fun _ => 0) 0 (0 : Nat → ℝ) 0
  obtain ⟨theta2, edb2, F2, h2⟩ := visco_defined (C := demo) (P := ⟨1, 1, 1 / 2, 3⟩) (dt := 2) demo_proper
    (by norm_num) (by norm_num) demo.y theta edb (0 : Nat → ℝ) 0
  obtain ⟨theta3, edb3, F3, h3⟩ := visco_defined (C := demo) (P := ⟨1, 1, 1 / 2, 3⟩) (dt := 1) demo_proper
    (by norm_num) (by norm_num) demo.y theta edb (0 : Nat → ℝ) 0
  obtain ⟨theta4, edb4, F4, h4⟩ := visco_defined (C := demo) (P := ⟨1, 1, 1 / 2, 3⟩) (dt := 1) demo_proper
    (by norm_num) (by norm_num) demo.y theta3 edb3 (0 : Nat → ℝ) 0
  exact ⟨_, _, _, _, _, _, _, h1, .step 2 0 0 .start (by norm_num) h2,
    .step 1 0 0 (.step 1 0 0 .start (by norm_num) h3) (by norm_num) h4⟩

example : ∃ theta edb F s s' F' F'',
    viscoMaterial demo ⟨1, 1, 1 / 2, 3⟩ 1 demo.x (fun _ => 0) 0 demoNbs.length (encode demoNbs) 0 0 = .ok (theta, edb, F) ∧
    Held demo ⟨1, 1, 1 / 2, 3⟩ demoNbs ⟨demo.y, theta, edb⟩ F 2 s F' ∧
    Held demo ⟨1, 1, 1 / 2, 3⟩ demoNbs ⟨demo.y, theta, edb⟩ F 2 s' F'' ∧ IsNeighbor demoNbs 1 1 2 := by
  obtain ⟨theta, edb, F, s, s', F', F'', h1, h2, h3⟩ := demo_held
  rw [show (0 : ℝ) + 2 = 2 by norm_num] at h2
  rw [show (0 : ℝ) + 1 + 1 = 2 by norm_num] at h3
  exact ⟨theta, edb, F, s, s', F', F'', h1, h2, h3, [0, 2], rfl, rfl⟩

/-! ### C254 -/

theorem om_of_uniform {C : Config} {nbs : List (List Nat)} {w : ℝ} (hw : Uniform C nbs w) {b : Bond} (hb : b ∈ bondsOf nbs) :
    C.om b = w := by
  obtain ⟨t, hn, -⟩ := bondsOf_pos hb
  exact hw b.i t b.j hn

theorem total_scale (C : Config) (nbs : List (List Nat)) (T : Bond → ℝ) (a : ℝ) (k : Nat) :
    total C nbs (fun b => a * T b) k = a • total C nbs T k := by
  have := total_combine C nbs T T a 0 k
  rw [zero_smul, add_zero] at this
  rw [← this]
  exact total_congr (fun b _ => by ring) k

/-- **C254** With `lambda_i = 0`, after any history, the viscoelastic material with influence function one has the dilatation and the
forces of the elastic material with the same moduli.  In general, for an influence function that is `w` on every bond, the elastic forces
are `w` times the viscoelastic ones: the forces of the viscoelastic material ignore the influence function. -/
theorem C254_influence_ignored (C : Config) (P : ViscoConst) (hl : P.lambdaI = 0) (nbs : List (List Nat)) (w : ℝ) (hw : Uniform C nbs w)
    (dt : ℝ) (s : ViscoState) (th stale theta edb : Nat → ℝ) (F : Nat → V3)
    (h : viscoMaterial C P dt s.y s.theta s.edb nbs.length (encode nbs) th stale = .ok (theta, edb, F)) :
    elasticMaterial { C with thermal := none } P.K P.mu nbs.length (encode nbs) th = .ok (theta, fun k => w • F k) := by
  obtain ⟨d, -, -, a, f⟩ := parts h
  obtain ⟨G, h1, h2⟩ := elastic_total (C := { C with thermal := none }) (K := P.K) (mu := P.mu) d
    fun b hb => ⟨(a b hb).1, (a b hb).2.1⟩
  rw [h1]
  congr 2
  funext k
  rw [h2 k, f k, ← total_scale]
  refine total_congr (C := C) (fun b hb => ?_) k
  have := tension_elastic (P := P) (theta := theta) (r := 0) (om_of_uniform hw hb) (zero_mul _).symm
  rw [mul_zero, sub_zero, mul_one] at this
  rw [this]
  unfold pairTension
  rw [hl]
  ring

/-- **C254** Loaded from rest within one step and then held for the time `T`, whatever the steps, the forces of the viscoelastic material
with influence function one are those of the elastic material with the relaxation modulus `μ (1 - λ (1 - (1 - β) exp (-T/τ)))`, where `β`
depends on the loading step only and is at most `dt/(2τ)`, so that fast loading is resisted with the full shear modulus. In general, for
an influence function that is `w` on every bond, the elastic forces are `w` times the viscoelastic ones. -/
theorem C254_from_rest (P : ViscoConst) (ht : 0 < P.tauB) (dt : ℝ) (hdt : 0 < dt) :
    ∃ β, 0 ≤ β ∧ β ≤ dt / (2 * P.tauB) ∧ β < 1 ∧ ∀ (C : Config) (nbs : List (List Nat)) (w : ℝ), Uniform C nbs w →
    ∀ (s : ViscoState) (th stale theta edb : Nat → ℝ) (F F' : Nat → V3) (T : ℝ),
    viscoMaterial C P dt C.x (fun _ => 0) (fun _ => 0) nbs.length (encode nbs) th stale = .ok (theta, edb, F) →
    Held C P nbs ⟨C.y, theta, edb⟩ F T s F' →
    elasticMaterial { C with thermal := none } P.K (P.mu * (1 - P.lambdaI * (1 - (1 - β) * Real.exp (-(T / P.tauB)))))
      nbs.length (encode nbs) th = .ok (theta, fun k => w • F' k) := by
  refine ⟨gain P.tauB dt, ?_, ?_, ?_, ?_⟩
  · unfold gain
    have h1 := Real.add_one_le_exp (-(dt / P.tauB))
    have h2 : P.tauB / dt * (1 - Real.exp (-(dt / P.tauB))) ≤ P.tauB / dt * (dt / P.tauB) :=
      mul_le_mul_of_nonneg_left (by linarith) (by positivity)
    have h3 : P.tauB / dt * (dt / P.tauB) = 1 := by field_simp
    linarith
  · unfold gain
    have hx : 0 < dt / P.tauB := by positivity
    have h3 : P.tauB / dt = 1 / (dt / P.tauB) := by field_simp
    have h4 : dt / (2 * P.tauB) = dt / P.tauB / 2 := by field_simp
    rw [h3, h4]
    generalize dt / P.tauB = x at hx
    have h1 := Real.quadratic_le_exp_of_nonneg hx.le
    have h5 : Real.exp (-x) ≤ 1 - x + x ^ 2 / 2 := by
      rw [Real.exp_neg]
      have hp := Real.exp_pos x
      rw [inv_le_iff_one_le_mul₀ hp]
      have h6 : 0 ≤ 1 - x + x ^ 2 / 2 := by nlinarith [sq_nonneg (x - 1)]
      calc (1 : ℝ) ≤ (1 - x + x ^ 2 / 2) * (1 + x + x ^ 2 / 2) := by nlinarith [sq_nonneg (x ^ 2)]
        _ ≤ (1 - x + x ^ 2 / 2) * Real.exp x := mul_le_mul_of_nonneg_left h1 h6
    have h7 : 1 / x * (x - x ^ 2 / 2) ≤ 1 / x * (1 - Real.exp (-x)) :=
      mul_le_mul_of_nonneg_left (by linarith) (by positivity)
    have h8 : 1 / x * (x - x ^ 2 / 2) = 1 - x / 2 := by field_simp
    linarith
  · unfold gain
    have h1 : Real.exp (-(dt / P.tauB)) < 1 := by
      rw [Real.exp_lt_one_iff]
      have : 0 < dt / P.tauB := by positivity
      linarith
    have : 0 < P.tauB / dt * (1 - Real.exp (-(dt / P.tauB))) := mul_pos (by positivity) (by linarith)
    linarith
  · intro C nbs w hw s th stale theta edb F F' T h h'
    obtain ⟨d, -, -, a, -⟩ := parts h
    obtain ⟨-, -, b3, b4⟩ := held_parts (s0 := ⟨C.x, fun _ => 0, fun _ => 0⟩) h h'
    obtain ⟨G, h1, h2⟩ := elastic_total (C := { C with thermal := none }) (K := P.K)
      (mu := P.mu * (1 - P.lambdaI * (1 - (1 - gain P.tauB dt) * Real.exp (-(T / P.tauB))))) d
      fun b hb => ⟨(a b hb).1, (a b hb).2.1⟩
    rw [h1]
    congr 2
    funext k
    rw [h2 k, b4 k, ← total_scale]
    refine total_congr (C := C) (fun b hb => ?_) k
    refine tension_elastic (om_of_uniform hw hb) ?_
    rw [b3 b hb, (a b hb).2.2]
    have hz : viscoEd C C.x (fun _ => 0) b = 0 := by
      unfold viscoEd Config.zeta
      ring
    rw [hz]
    unfold viscoBack
    ring

/-- **C254** Whatever the history before, while the body is held the forces approach those of the elastic material with shear modulus
`(1 - λ) μ` exponentially (influence function one; in general `w` times the viscoelastic forces). -/
theorem C254_relaxed (C : Config) (P : ViscoConst) (nbs : List (List Nat)) (w : ℝ) (hw : Uniform C nbs w) (dt : ℝ) (s0 : ViscoState)
    (th stale theta edb : Nat → ℝ) (F : Nat → V3)
    (h0 : viscoMaterial C P dt s0.y s0.theta s0.edb nbs.length (encode nbs) th stale = .ok (theta, edb, F)) :
    ∃ G, elasticMaterial { C with thermal := none } P.K (P.mu * (1 - P.lambdaI)) nbs.length (encode nbs) th = .ok (theta, G) ∧
      ∀ s F' T, Held C P nbs ⟨C.y, theta, edb⟩ F T s F' →
        ∀ k, w • F' k - G k = Real.exp (-(T / P.tauB)) • (w • F k - G k) := by
  obtain ⟨d, -, -, a, f⟩ := parts h0
  obtain ⟨G, h1, h2⟩ := elastic_total (C := { C with thermal := none }) (K := P.K) (mu := P.mu * (1 - P.lambdaI)) d
    fun b hb => ⟨(a b hb).1, (a b hb).2.1⟩
  refine ⟨G, h1, fun s F' T h k => ?_⟩
  obtain ⟨-, -, b3, b4⟩ := held_parts h0 h
  have hG : G k = w • total C nbs (fun b => pairTension C P theta (viscoEd C C.y theta b) (viscoEd C C.y theta b) b) k := by
    rw [h2 k, ← total_scale]
    refine total_congr (C := C) (fun b hb => ?_) k
    have := tension_elastic (P := P) (theta := theta) (r := 1) (om_of_uniform hw hb) (one_mul _).symm
    rw [mul_one] at this
    exact this
  have hF' : F' k = (1 - Real.exp (-(T / P.tauB))) •
      total C nbs (fun b => pairTension C P theta (viscoEd C C.y theta b) (viscoEd C C.y theta b) b) k +
      Real.exp (-(T / P.tauB)) • F k := by
    rw [f k, b4 k, ← total_combine]
    refine total_congr (fun b hb => ?_) k
    rw [b3 b hb]
    unfold pairTension
    ring
  rw [hF', hG]
  module

theorem pair_proper (w : ℝ) (hw : w ≠ 0) : Proper (Fad.pairUnder w) [[1], [0]] := by
  have hbs : bondsOf [[1], [0]] = [⟨0, 1, 0⟩, ⟨1, 0, 1⟩] := by decide
  intro p j hb
  obtain ⟨b, hb, hi, hj⟩ := bond_of_has hb
  rw [hbs] at hb
  simp only [List.mem_cons, List.not_mem_nil, or_false] at hb
  refine ⟨hw, ?_, ?_⟩ <;> intro e <;> rcases hb with rfl | rfl <;> subst hi <;> subst hj <;>
    have := congrFun e 0 <;> simp [Fad.pairUnder] at this

/-- **C254** fails for other influence functions: for a stretched pair of points with influence function two and no relaxation
the viscoelastic forces are not the elastic ones. -/
theorem C254_not_elastic : ∃ (C : Config) (P : ViscoConst) (nbs : List (List Nat)) (theta edb theta' : Nat → ℝ) (F G : Nat → V3),
    P.lambdaI = 0 ∧ C.thermal = none ∧ Weighted C nbs ∧
    viscoMaterial C P 1 C.x (fun _ => 0) (fun _ => 0) nbs.length (encode nbs) (fun _ => 0) (fun _ => 0) = .ok (theta, edb, F) ∧
    elasticMaterial C P.K P.mu nbs.length (encode nbs) (fun _ => 0) = .ok (theta', G) ∧ F ≠ G := by
  obtain ⟨theta, edb, F, h⟩ := visco_defined (C := Fad.pairUnder 2) (P := ⟨1, 1, 0, 3⟩) (dt := 1)
    (pair_proper 2 (by norm_num)) (by norm_num) (by norm_num) (Fad.pairUnder 2).x (fun _ => 0) (fun _ => 0) (fun _ => 0) (fun _ => 0)
  obtain ⟨theta', G, s', hW, hG, -, -, hne⟩ := Fad.pairUnder_forces 2 (by norm_num)
  have he := C254_influence_ignored (Fad.pairUnder 2) ⟨1, 1, 0, 3⟩ rfl [[1], [0]] 2 (fun _ _ _ _ => rfl) 1
    ⟨(Fad.pairUnder 2).x, fun _ => 0, fun _ => 0⟩ _ _ theta edb F h
  refine ⟨Fad.pairUnder 2, ⟨1, 1, 0, 3⟩, [[1], [0]], theta, edb, theta', F, G, rfl, rfl, hW, h, hG, ?_⟩
  rintro rfl
  have he : elasticMaterial (Fad.pairUnder 2) 1 1 2 (encode [[1], [0]]) (fun _ => 0) = .ok (theta, fun k => (2 : ℝ) • F k) := he
  rw [hG] at he
  have h2 := congrFun (Prod.ext_iff.1 (Outcome.ok.inj he)).2 0
  simp only at h2
  apply hne
  have : F 0 - (2 : ℝ) • F 0 = 0 := sub_eq_zero.2 h2
  have h3 : F 0 = -(F 0 - (2 : ℝ) • F 0) := by module
  rw [h3, this, neg_zero]

/-- **C254** With influence function one: without relaxation the material is elastic, loaded from rest and held it is elastic with the
relaxation modulus.  Missing: other influence functions, for which this is false (`C254_not_elastic`). -/
theorem C254_elastic_partial (C : Config) (P : ViscoConst) (nbs : List (List Nat)) (hw : Uniform C nbs 1) (dt : ℝ) (s : ViscoState)
    (th stale theta edb : Nat → ℝ) (F : Nat → V3)
    (h : viscoMaterial C P dt s.y s.theta s.edb nbs.length (encode nbs) th stale = .ok (theta, edb, F)) :
    (P.lambdaI = 0 → elasticMaterial { C with thermal := none } P.K P.mu nbs.length (encode nbs) th = .ok (theta, F)) ∧
    (0 < P.tauB → 0 < dt → s = ⟨C.x, fun _ => 0, fun _ => 0⟩ → ∃ β, 0 ≤ β ∧ β ≤ dt / (2 * P.tauB) ∧ β < 1 ∧
      ∀ s' F' T, Held C P nbs ⟨C.y, theta, edb⟩ F T s' F' →
        elasticMaterial { C with thermal := none } P.K (P.mu * (1 - P.lambdaI * (1 - (1 - β) * Real.exp (-(T / P.tauB)))))
          nbs.length (encode nbs) th = .ok (theta, F')) := by
  refine ⟨fun hl => ?_, fun ht hdt hs => ?_⟩
  · have := C254_influence_ignored C P hl nbs 1 hw dt s th stale theta edb F h
    simpa using this
  · subst hs
    obtain ⟨β, b1, b2, b3, b4⟩ := C254_from_rest P ht dt hdt
    refine ⟨β, b1, b2, b3, fun s' F' T hh => ?_⟩
    have := b4 C nbs 1 hw s' th stale theta edb F F' T h hh
    simpa using this

example : Uniform demo demoNbs 1 ∧ ∃ theta edb F s F',
    viscoMaterial demo ⟨1, 1, 1 / 2, 3⟩ 1 demo.x (fun _ => 0) (fun _ => 0) demoNbs.length (encode demoNbs) 0 0 = .ok (theta, edb, F) ∧
    Held demo ⟨1, 1, 1 / 2, 3⟩ demoNbs ⟨demo.y, theta, edb⟩ F (0 + 2) s F' := by
  obtain ⟨theta, edb, F, s, s', F', F'', h1, h2, h3⟩ := demo_held
  exact ⟨fun _ _ _ _ => rfl, theta, edb, F, s, F', h1, h2⟩

example : Uniform (Fad.pairUnder 2) [[1], [0]] 2 ∧ ∃ theta edb F,
    viscoMaterial (Fad.pairUnder 2) ⟨1, 1, 0, 3⟩ 1 (Fad.pairUnder 2).x (fun _ => 0) (fun _ => 0) 2 (encode [[1], [0]]) (fun _ => 0)
      (fun _ => 0) = .ok (theta, edb, F) :=
  ⟨fun _ _ _ _ => rfl, visco_defined (pair_proper 2 (by norm_num)) (by norm_num) (by norm_num) _ _ _ _ _⟩

end Verif.Visco
