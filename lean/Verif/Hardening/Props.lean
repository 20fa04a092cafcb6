import Verif.Hardening.Lemmas
import Verif.Mech.HistoryProps

/-!
# Properties C129 and C130: the plastic material with isotropic hardening
-/

noncomputable section

namespace Verif.Hardening

open Verif Verif.Neigh Verif.Mech Matrix

/-! ### C129 -/

theorem new_measure {C : Config} {P : Const} {scf : Nat → ℝ} {nbs : List (List Nat)} {p : Nat} {ns : List Nat}
    (hp : nbs[p]? = some ns) (hs : Sound P scf nbs.length C) {theta edpN edp : Nat → ℝ} {dl : ℝ} (hdl : 0 < dl)
    (hb : ∀ b ∈ bondsOf nbs, b.i = p → ∃ td, update C P scf theta edpN dl b = .ok (td, edp b.b)) :
    yieldMeasure C (scf p * P.mu) nbs theta edpN p ns =
      yieldMeasure C (scf p * P.mu) nbs theta edp p ns * (1 + alphaOf C P scf p * dl) ^ 2 := by
  have ha := alpha_pos hs (List.getElem?_eq_some_iff.1 hp).1
  have hpos : 0 < 1 + alphaOf C P scf p * dl := by positivity
  rw [measure_eq hp, measure_eq hp]
  have : trialSum C theta edpN (alphaOf C P scf p) ((bondsOf nbs).filter fun b => b.i = p) =
      (1 + alphaOf C P scf p * dl) ^ 2 *
        trialSum C theta edp (alphaOf C P scf p) ((bondsOf nbs).filter fun b => b.i = p) := by
    rw [trialSum, trialSum, ← List.sum_map_mul_left]
    congr 1
    apply List.map_congr_left
    intro b hmem
    have hm := List.mem_filter.1 hmem
    have hi : b.i = p := by simpa using hm.2
    obtain ⟨td, hu⟩ := hb b hm.1 hi
    have hsc := (update_scaled hdl (by rw [hi]; exact ha) hu).1
    rw [hi] at hsc
    rw [hsc]
    field_simp
  rw [this]
  ring

/-- C129, one step: the yield condition with the hardened yield value holds after the step; the multiplier does not
decrease; and if it increases, the state is on the yield surface. -/
theorem C129_yield (C : Config) (P : Const) (scf : Nat → ℝ) (nbs : List (List Nat))
    (hs : Sound P scf nbs.length C) (th edpN lambdaN theta : Nat → ℝ) (s s' : PlasticState)
    (h : material C P scf nbs.length (encode nbs) th edpN lambdaN s = .ok (theta, s'))
    (p : Nat) (ns : List Nat) (hp : nbs[p]? = some ns) (hl : 0 ≤ lambdaN p) :
    yieldMeasure C (scf p * P.mu) nbs theta s'.edp p ns ≤
        virginYield P C.horizon (scf p) + P.H * s'.lambda p ∧
      lambdaN p ≤ s'.lambda p ∧
      (lambdaN p < s'.lambda p →
        yieldMeasure C (scf p * P.mu) nbs theta s'.edp p ns =
          virginYield P C.horizon (scf p) + P.H * s'.lambda p) := by
  obtain ⟨yv, hyv, hall⟩ := material_spec h
  have hlt := (List.getElem?_eq_some_iff.1 hp).1
  obtain ⟨dl, hdl, hlam, hb⟩ := hall p hlt
  obtain ⟨dl', hdl', hspec⟩ := flow_spec hp hs hyv theta edpN hl
  rw [hdl] at hdl'
  cases hdl'
  rcases hspec with ⟨h1, rfl⟩ | ⟨_, h2, h3⟩
  · rw [if_neg (lt_irrefl _)] at hlam
    rw [hlam]
    refine ⟨?_, le_refl _, fun hh => absurd hh (lt_irrefl _)⟩
    have : yieldMeasure C (scf p * P.mu) nbs theta s'.edp p ns =
        yieldMeasure C (scf p * P.mu) nbs theta edpN p ns := by
      rw [measure_eq hp, measure_eq hp, trialSum, trialSum]
      congr 2
      apply List.map_congr_left
      intro b hmem
      have hm := List.mem_filter.1 hmem
      obtain ⟨td, hu⟩ := hb b hm.1 (by simpa using hm.2)
      rw [update_elastic hu]
    rw [this]
    exact h1
  · rw [if_pos h2] at hlam
    have ha := alpha_pos hs hlt
    have hpos : 0 < (1 + alphaOf C P scf p * dl) ^ 2 := by positivity
    have hm := new_measure hp hs h2 hb
    rw [h3] at hm
    have e := mul_right_cancel₀ hpos.ne' hm
    rw [hlam]
    exact ⟨e.symm.le, by linarith, fun _ => e.symm⟩

/-- C129, elastic steps: if the trial state does not exceed the hardened yield value, neither the multiplier nor the
plastic extensions change. -/
theorem C129_elastic (C : Config) (P : Const) (scf : Nat → ℝ) (nbs : List (List Nat))
    (hs : Sound P scf nbs.length C) (th edpN lambdaN theta : Nat → ℝ) (s s' : PlasticState)
    (h : material C P scf nbs.length (encode nbs) th edpN lambdaN s = .ok (theta, s'))
    (p : Nat) (ns : List Nat) (hp : nbs[p]? = some ns) (hl : 0 ≤ lambdaN p)
    (hel : yieldMeasure C (scf p * P.mu) nbs theta edpN p ns ≤
      virginYield P C.horizon (scf p) + P.H * lambdaN p) :
    s'.lambda p = lambdaN p ∧
      ∀ t < ns.length, s'.edp (bondPos nbs p t) = edpN (bondPos nbs p t) := by
  obtain ⟨yv, hyv, hall⟩ := material_spec h
  have hlt := (List.getElem?_eq_some_iff.1 hp).1
  obtain ⟨dl, hdl, hlam, hb⟩ := hall p hlt
  obtain ⟨dl', hdl', hspec⟩ := flow_spec hp hs hyv theta edpN hl
  rw [hdl] at hdl'
  cases hdl'
  rcases hspec with ⟨_, rfl⟩ | ⟨h1, _⟩
  · rw [if_neg (lt_irrefl _)] at hlam
    refine ⟨hlam, fun t ht => ?_⟩
    have hmem : (⟨p, ns[t], bondPos nbs p t⟩ : Bond) ∈ (bondsOf nbs).filter fun b => b.i = p := by
      rw [filter_bondsOf nbs hp]
      refine List.mem_map.2 ⟨(ns[t], t), ?_, rfl⟩
      rw [List.mem_zipIdx_iff_getElem?]
      simp [ht]
    obtain ⟨td, hu⟩ := hb _ (List.mem_filter.1 hmem).1 rfl
    exact update_elastic hu
  · exact absurd hel (not_le.2 h1)

/-- C129, plastic steps: if the trial state exceeds the hardened yield value, the multiplier increases, and the plastic
extension of each bond changes by the increment times the deviatoric force state after the step (normality). -/
theorem C129_flow (C : Config) (P : Const) (scf : Nat → ℝ) (nbs : List (List Nat))
    (hs : Sound P scf nbs.length C) (th edpN lambdaN theta : Nat → ℝ) (s s' : PlasticState)
    (h : material C P scf nbs.length (encode nbs) th edpN lambdaN s = .ok (theta, s'))
    (p : Nat) (ns : List Nat) (hp : nbs[p]? = some ns) (hl : 0 ≤ lambdaN p)
    (hpl : virginYield P C.horizon (scf p) + P.H * lambdaN p <
      yieldMeasure C (scf p * P.mu) nbs theta edpN p ns) :
    lambdaN p < s'.lambda p ∧
      ∀ t j, ns[t]? = some j → s'.edp (bondPos nbs p t) - edpN (bondPos nbs p t) =
        (s'.lambda p - lambdaN p) * (scf p * (15 * P.mu / C.m p) *
          (devExtension C theta p j - s'.edp (bondPos nbs p t))) := by
  obtain ⟨yv, hyv, hall⟩ := material_spec h
  have hlt := (List.getElem?_eq_some_iff.1 hp).1
  obtain ⟨dl, hdl, hlam, hb⟩ := hall p hlt
  obtain ⟨dl', hdl', hspec⟩ := flow_spec hp hs hyv theta edpN hl
  rw [hdl] at hdl'
  cases hdl'
  rcases hspec with ⟨h1, _⟩ | ⟨_, h2, _⟩
  · exact absurd hpl (not_lt.2 h1)
  · rw [if_pos h2] at hlam
    refine ⟨by rw [hlam]; linarith, fun t j htj => ?_⟩
    have hmem : (⟨p, j, bondPos nbs p t⟩ : Bond) ∈ (bondsOf nbs).filter fun b => b.i = p := by
      rw [filter_bondsOf nbs hp]
      refine List.mem_map.2 ⟨(j, t), ?_, rfl⟩
      rw [List.mem_zipIdx_iff_getElem?]
      exact htj
    obtain ⟨td, hu⟩ := hb _ (List.mem_filter.1 hmem).1 rfl
    have := (update_scaled h2 (alpha_pos hs hlt) hu).2
    simp only at this
    rw [this, hlam]
    have e : edState C theta ⟨p, j, bondPos nbs p t⟩ = devExtension C theta p j := rfl
    rw [e, alphaOf]
    ring

/-- C129, the material always gives a result for points that do not coincide: solving for the increment never divides
by zero. -/
theorem C129_defined (C : Config) (P : Const) (scf : Nat → ℝ) (nbs : List (List Nat)) (hpr : Proper C nbs)
    (hs : Sound P scf nbs.length C) (lambdaN : Nat → ℝ) (hl : ∀ p < nbs.length, 0 ≤ lambdaN p)
    (th edpN : Nat → ℝ) (s : PlasticState) :
    ∃ theta s', material C P scf nbs.length (encode nbs) th edpN lambdaN s = .ok (theta, s') :=
  material_defined hpr hs hl th edpN s

/-- C129 over a history of any length: at every stage the yield condition holds with the multiplier of that stage, and
the multiplier of every point is at least what it was at the start and at every earlier stage. -/
theorem C129_history (P : Const) (scf : Nat → ℝ) (nbs : List (List Nat)) (s0 s : PlasticState)
    (hist : List (Config × (Nat → ℝ) × PlasticState)) (h : Run P scf nbs s0 s hist)
    (h0 : ∀ p < nbs.length, 0 ≤ s0.lambda p) (hok : ∀ e ∈ hist, Sound P scf nbs.length e.1) :
    (∀ e ∈ hist, ∀ p ns, nbs[p]? = some ns →
        yieldMeasure e.1 (scf p * P.mu) nbs e.2.1 e.2.2.edp p ns ≤
          virginYield P e.1.horizon (scf p) + P.H * e.2.2.lambda p) ∧
      ∀ p < nbs.length, s0.lambda p ≤ s.lambda p ∧ ∀ e ∈ hist, e.2.2.lambda p ≤ s.lambda p := by
  induction h with
  | start => simp
  | @step s hist i theta s' hrun hstep ih =>
    obtain ⟨h1, h2⟩ := ih fun e he => hok e (List.mem_cons_of_mem _ he)
    have hi := hok _ List.mem_cons_self
    have hnn : ∀ p < nbs.length, 0 ≤ s.lambda p := fun p hp => (h0 p hp).trans (h2 p hp).1
    constructor
    · intro e he p ns hp
      rcases List.mem_cons.1 he with rfl | he
      · exact (C129_yield i.C P scf nbs hi _ _ _ _ _ _ hstep p ns hp
          (hnn p (List.getElem?_eq_some_iff.1 hp).1)).1
      · exact h1 e he p ns hp
    · intro p hp
      have hle := (C129_yield i.C P scf nbs hi _ _ _ _ _ _ hstep p _ (List.getElem?_eq_getElem hp) (hnn p hp)).2.1
      obtain ⟨h3, h4⟩ := h2 p hp
      refine ⟨h3.trans hle, ?_⟩
      intro e he
      rcases List.mem_cons.1 he with rfl | he
      · exact le_refl _
      · exact (h4 e he).trans hle

/-- The case of C17 with a hardening material. -/
theorem demo_sound : Sound ⟨1, 1, 1, 1⟩ (fun _ => 1) demoNbs.length demo :=
  ⟨by norm_num, by norm_num, by norm_num [demo], fun _ _ => by norm_num, fun _ _ => by norm_num [demo],
    fun k => by simp only [demo]; positivity⟩

/-- A run of one step exists from the virgin state. -/
example : ∃ s hist, Run ⟨1, 1, 1, 1⟩ (fun _ => 1) demoNbs ⟨0, 0, 0⟩ s hist ∧ hist.length = 1 ∧
    ∀ e ∈ hist, Sound ⟨1, 1, 1, 1⟩ (fun _ => 1) demoNbs.length e.1 := by
  obtain ⟨theta, s', h⟩ := C129_defined demo ⟨1, 1, 1, 1⟩ (fun _ => 1) demoNbs demo_proper demo_sound 0
    (fun _ _ => le_refl _) 0 0 ⟨0, 0, 0⟩
  refine ⟨s', _, Run.step ⟨demo, 0, ⟨0, 0, 0⟩⟩ Run.start h, rfl, ?_⟩
  intro e he
  rw [List.mem_singleton] at he
  subst he
  exact demo_sound

/-- The dilatation is computed first, whatever the plastic variables. -/
theorem material_theta {C : Config} {P : Const} {scf : Nat → ℝ} {n : Nat} {l : List Nat}
    {th edpN lambdaN theta : Nat → ℝ} {s s' : PlasticState}
    (h : material C P scf n l th edpN lambdaN s = .ok (theta, s')) :
    dilatation { C with thermal := none } n l th = .ok theta := by
  unfold material at h
  split at h
  · next t ht =>
    split at h
    · cases h; exact ht
    · cases h
    · cases h
  · cases h
  · cases h

/-- Steps that exceed the yield value occur: the first point of the case, with a plastic extension that is one off. -/
example : ∃ edpN theta s', material demo ⟨1, 1, 1 / 10, 1⟩ (fun _ => 1) demoNbs.length (encode demoNbs) 0 edpN 0
      ⟨0, 0, 0⟩ = .ok (theta, s') ∧
    virginYield ⟨1, 1, 1 / 10, 1⟩ demo.horizon 1 + 1 * 0 < yieldMeasure demo (1 * 1) demoNbs theta edpN 0 [1] := by
  have hs : Sound ⟨1, 1, 1 / 10, 1⟩ (fun _ => 1) demoNbs.length demo :=
    ⟨by norm_num, by norm_num, by norm_num [demo], fun _ _ => by norm_num, fun _ _ => by norm_num [demo],
      fun k => by simp only [demo]; positivity⟩
  have hdef := fun edpN => C129_defined demo ⟨1, 1, 1 / 10, 1⟩ (fun _ => 1) demoNbs demo_proper hs 0
    (fun _ _ => le_refl _) 0 edpN ⟨0, 0, 0⟩
  obtain ⟨theta, _, h0⟩ := hdef 0
  obtain ⟨theta', s', h1⟩ := hdef fun _ => devExtension demo theta 0 1 - 1
  have e := material_theta h0
  rw [material_theta h1] at e
  cases e
  refine ⟨_, _, s', h1, ?_⟩
  have hv : virginYield ⟨1, 1, 1 / 10, 1⟩ demo.horizon 1 < 1 := by
    have := Real.pi_gt_three
    simp only [virginYield, demo]
    rw [mul_div_assoc', div_lt_iff₀ (by positivity)]
    norm_num
    linarith
  have hm : yieldMeasure demo (1 * 1) demoNbs theta (fun _ => devExtension demo theta 0 1 - 1) 0 [1] = 9 := by
    simp only [yieldMeasure, List.zipIdx_cons, List.zipIdx_nil, List.map_cons, List.map_nil, List.sum_cons,
      List.sum_nil]
    norm_num [demo, bondPos]
  rw [hm]
  linarith

/-! ### C130 -/

/-- C130, linear momentum. -/
theorem C130_force (C : Config) (P : Const) (scf : Nat → ℝ) (nbs : List (List Nat))
    (th edpN lambdaN theta : Nat → ℝ) (s s' : PlasticState) (N : Nat) (hN : Within nbs N)
    (h : material C P scf nbs.length (encode nbs) th edpN lambdaN s = .ok (theta, s')) :
    totalForce C.v s'.F N = 0 :=
  force_of_scattered (material_scattered h) (within_flatMap hN)

/-- C130, angular momentum. -/
theorem C130_moment (C : Config) (P : Const) (scf : Nat → ℝ) (nbs : List (List Nat))
    (th edpN lambdaN theta : Nat → ℝ) (s s' : PlasticState) (N : Nat) (hN : Within nbs N)
    (h : material C P scf nbs.length (encode nbs) th edpN lambdaN s = .ok (theta, s')) :
    totalMoment C.y C.v s'.F N = 0 :=
  moment_of_scattered ((material_scattered h).mono fun _ _ _ hg => hg.1) (within_flatMap hN)

/-- C130, broken bonds: a point all of whose bonds in both directions are broken has no internal force. -/
theorem C130_free_point (C : Config) (P : Const) (scf : Nat → ℝ) (nbs : List (List Nat)) (k : Nat)
    (hk : ∀ p t j : Nat, (∃ ns, nbs[p]? = some ns ∧ ns[t]? = some j) → p = k ∨ j = k →
      C.damage (bondPos nbs p t) = 1)
    (th edpN lambdaN theta : Nat → ℝ) (s s' : PlasticState)
    (h : material C P scf nbs.length (encode nbs) th edpN lambdaN s = .ok (theta, s')) :
    s'.F k = 0 := by
  refine force_zero_of (material_scattered h) k ?_
  intro b hb hor g hg
  obtain ⟨p, _, hbp⟩ := List.mem_flatMap.1 hb
  apply hg.2
  obtain ⟨t, h1, h2⟩ := bondsOf_pos (List.mem_filter.1 hbp).1
  rw [h2]
  exact hk b.i t b.j h1 hor

theorem move_flow {Q : Matrix (Fin 3) (Fin 3) ℝ} (hQ : Qᵀ * Q = 1) (c : V3) (C : Config) (P : Const)
    (scf : Nat → ℝ) (yv : ℝ) (theta edpN lambdaN : Nat → ℝ) (p : Nat) (bs : List Bond) :
    flow (C.move Q c) P scf yv theta edpN lambdaN p bs = flow C P scf yv theta edpN lambdaN p bs := by
  unfold flow deviatoricNorm
  simp only [move_edState hQ]
  rfl

theorem move_inner {Q : Matrix (Fin 3) (Fin 3) ℝ} (hQ : Qᵀ * Q = 1) (c : V3) (C : Config) (P : Const)
    (scf theta edpN : Nat → ℝ) (dl : ℝ) (bs : List Bond) (s : PlasticState) :
    inner (C.move Q c) P scf theta edpN dl bs (s.rot Q) =
      (inner C P scf theta edpN dl bs s).map (PlasticState.rot Q) := by
  induction bs generalizing s with
  | nil => rfl
  | cons b bs ih =>
    rw [inner, inner]
    have hu : update (C.move Q c) P scf theta edpN dl b = update C P scf theta edpN dl b := by
      unfold update
      simp only [move_edState hQ]
      rfl
    rw [hu]
    cases update C P scf theta edpN dl b with
    | ok u =>
      obtain ⟨td, edp'⟩ := u
      simp only
      have hb : pairForce (C.move Q c) P theta td b = rotateOut Q (pairForce C P theta td b) := by
        unfold pairForce
        simp only
        rw [← move_along hQ c]
        rfl
      rw [hb]
      cases pairForce C P theta td b with
      | ok f =>
        simp only [rotateOut, Outcome.map]
        have := ih { s with
            edp := Function.update s.edp b.b edp'
            F := scatterStep (selfVol C) (nbrVol C) s.F b f }
        simp only [PlasticState.rot, ← scatterStep_rot] at this
        exact this
      | fail e => rfl
      | ub => rfl
    | fail e => rfl
    | ub => rfl

theorem move_points {Q : Matrix (Fin 3) (Fin 3) ℝ} (hQ : Qᵀ * Q = 1) (c : V3) (C : Config) (P : Const)
    (scf : Nat → ℝ) (yv : ℝ) (theta edpN lambdaN : Nat → ℝ) (bonds : List Bond) (ps : List Nat)
    (s : PlasticState) :
    points (C.move Q c) P scf yv theta edpN lambdaN bonds ps (s.rot Q) =
      (points C P scf yv theta edpN lambdaN bonds ps s).map (PlasticState.rot Q) := by
  induction ps generalizing s with
  | nil => rfl
  | cons p ps ih =>
    rw [points, points, move_flow hQ]
    cases flow C P scf yv theta edpN lambdaN p (bonds.filter fun b => b.i = p) with
    | ok dl =>
      simp only
      have h1 := move_inner hQ c C P scf theta edpN dl (bonds.filter fun b => b.i = p)
        { s with lambda := Function.update s.lambda p (if dl > 0 then lambdaN p + dl else lambdaN p) }
      simp only [PlasticState.rot] at h1 ⊢
      rw [h1]
      cases inner C P scf theta edpN dl (bonds.filter fun b => b.i = p)
          { s with lambda := Function.update s.lambda p (if dl > 0 then lambdaN p + dl else lambdaN p) } with
      | ok s1 => exact ih s1
      | fail e => rfl
      | ub => rfl
    | fail e => rfl
    | ub => rfl

/-- C130, frame indifference: a rigid motion of the deformed body rotates the forces and changes nothing else. -/
theorem C130_frame (C : Config) (Q : Matrix (Fin 3) (Fin 3) ℝ) (hQ : Qᵀ * Q = 1) (c : V3)
    (P : Const) (scf : Nat → ℝ) (n : Nat) (l : List Nat) (th edpN lambdaN : Nat → ℝ) (s : PlasticState) :
    material { C with y := moved Q c C.y } P scf n l th edpN lambdaN s =
      (material C P scf n l th edpN lambdaN s).map fun r =>
        (r.1, { r.2 with F := fun k => Q *ᵥ r.2.F k }) := by
  change material (C.move Q c) P scf n l th edpN lambdaN s = _
  unfold material
  have hd : dilatation { C.move Q c with thermal := none } n l th =
      dilatation { C with thermal := none } n l th :=
    move_dilatation hQ c { C with thermal := none } n l th
  rw [hd]
  cases dilatation { C with thermal := none } n l th with
  | ok theta =>
    simp only
    have hp : force (C.move Q c) P scf theta edpN lambdaN n l { s with F := 0 } =
        (force C P scf theta edpN lambdaN n l { s with F := 0 }).map (PlasticState.rot Q) := by
      unfold force
      have hh : (C.move Q c).horizon = C.horizon := rfl
      rw [hh]
      cases yieldValue P C.horizon with
      | ok yv =>
        simp only
        cases visitedBonds n l with
        | ok bonds =>
          simp only
          have := move_points hQ c C P scf yv theta edpN lambdaN bonds (List.range n)
            { s with F := 0 }
          simp only [PlasticState.rot, rot_zero] at this
          exact this
        | fail e => rfl
        | ub => rfl
      | fail e => rfl
      | ub => rfl
    rw [hp]
    cases force C P scf theta edpN lambdaN n l { s with F := 0 } with
    | ok s1 => rfl
    | fail e => rfl
    | ub => rfl
  | fail e => rfl
  | ub => rfl

/-- C130 applies to the case of C129. -/
example : ∃ theta s', material demo ⟨1, 1, 1, 1⟩ (fun _ => 1) demoNbs.length (encode demoNbs) 0 0 0 ⟨0, 0, 0⟩ =
    .ok (theta, s') ∧ Within demoNbs 3 :=
  (C129_defined demo ⟨1, 1, 1, 1⟩ (fun _ => 1) demoNbs demo_proper demo_sound 0
    (fun _ _ => le_refl _) 0 0 ⟨0, 0, 0⟩).elim fun theta ⟨s', h⟩ =>
      ⟨theta, s', h, by simp [demoNbs, Within]⟩

end Verif.Hardening
