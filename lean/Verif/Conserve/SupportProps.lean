import Verif.Conserve.SupportSpec
import Verif.Conserve.ReciprocalProps

/-! C269: reactions carry the load. -/

noncomputable section

namespace Verif.Conserve

open Verif Verif.Neigh Verif.Mech

variable {σ ω : Type}

/-- **C269** In every completed load step of a quasi-static analysis, with any material whose internal forces sum to zero, the reactions computed from
the internal force at the final positions sum to the body forces on free degrees of freedom, up to the tolerance. -/
theorem C269_supports (P : QuasiStatic.Params) (E : QuasiStatic.Env) (T : QuasiStatic.Solver σ ω) (ds : List BC.Definition)
    (hcs : BC.makeConditions ds = .ok E.cs) (hm : E.dofs = BC.dispOnly) (hown : E.C.owned.Nodup)
    (hfound : BC.SetsFound E.dofs E.C.sets E.cs.boundary) (hT : NoResultant E.volume E.C.owned.length T) (t0 : ℝ) (vecs : BC.Vecs)
    (r : QuasiStatic.Record ω) (h : Completed P E T t0 vecs r) (h0 : 0 ≤ r.attempt.tol) (h1 : r.attempt.tol ≤ 10 ^ 48) :
    ∃ f R, (∃ M wk dt w wk', T.force M wk dt w = .ok (wk', f) ∧ w .y = r.vecs .y ∧ w .v = r.vecs .v) ∧
      BC.computeReactions E.dofs E.C.owned E.C.sets E.cs.boundary ((List.range E.length).map f) = .ok R ∧
      ∀ k < 3, 21 * |∑ l ∈ Finset.range E.C.owned.length, E.volume l * R.getD (l * 3 + k) 0 - carried E (r.vecs .externalForce) k| ≤
        100 * r.attempt.tol * E.C.owned.length := by
  classical
  obtain ⟨rest, N, work, tf, s0, n, x, hst, hrun, hr⟩ := h
  obtain ⟨-, N', wk, wk', w, f, bound, hf, hwy, hwv, -, hbal, hbd⟩ := QuasiStatic.C42_equilibrium P E T ds hcs hm _ vecs N work tf s0 hst n x hrun r hr
  have hbd' : bound ≤ 100 * r.attempt.tol := by
    rcases hbd with h | h | h
    · linarith
    · exact h.le
    · exact absurd h1 (not_le.2 h)
  have ht : E.dofs.total = 3 := by rw [hm]; rfl
  obtain ⟨R, hR, -, hx⟩ := BC.reactions_exact E.dofs (by rw [hm]; exact BC.dispOnly_good) E.C.owned E.C.sets E.cs.boundary
    (QuasiStatic.makeConditions_coords hcs) hfound ((List.range E.length).map f) (by rw [List.length_map, List.length_range, ht]; rfl)
  refine ⟨f, R, ⟨N', wk, _, w, wk', hf, hwy, hwv⟩, hR, fun k hk => ?_⟩
  have hz := hT _ _ _ _ _ _ hf k hk
  unfold carried
  have e : ∑ l ∈ Finset.range E.C.owned.length, E.volume l * R.getD (l * 3 + k) 0 -
      (∑ l ∈ Finset.range E.C.owned.length, if Fixed E l k then 0 else E.volume l * r.vecs .externalForce (l * 3 + k)) =
      -∑ l ∈ Finset.range E.C.owned.length, if Fixed E l k then 0 else (f (l * 3 + k) + r.vecs .externalForce (l * 3 + k)) * E.volume l := by
    refine Eq.trans (sub_zero _).symm ((congrArg (_ - ·) hz.symm).trans ?_)
    show _ - _ - ∑ l ∈ Finset.range E.C.owned.length, E.volume l * f (l * 3 + k) = _
    rw [← Finset.sum_sub_distrib, ← Finset.sum_sub_distrib, ← Finset.sum_neg_distrib]
    refine Finset.sum_congr rfl fun l hl => ?_
    have hl := Finset.mem_range.1 hl
    have hlid : BC.lid E.C.owned E.C.owned[l] = some l := by
      unfold BC.lid
      rw [if_pos (List.getElem_mem hl), hown.idxOf_getElem]
    obtain ⟨x1, x2⟩ := hx _ l .displacement k hlid (by rw [hm]; rfl) (by rw [hm]; exact hk)
    have hrow : Dof.row E.dofs l .displacement k = l * 3 + k := by
      rw [hm]
      show 3 * l + 0 + k = l * 3 + k
      omega
    have hlt : l * 3 + k < E.length := by unfold QuasiStatic.Env.length; omega
    rw [hrow] at x1 x2
    rw [List.getD_eq_getElem?_getD]
    by_cases hc : Fixed E l k
    · obtain ⟨g, hg, hcon⟩ := hc
      have eg : g = E.C.owned[l] := by
        obtain ⟨q1, q2⟩ := BC.lid_some.mp hg
        subst q2
        exact (List.getElem_idxOf _).symm
      rw [if_pos ⟨g, hg, hcon⟩, if_pos ⟨g, hg, hcon⟩, x1 (eg ▸ hcon), List.getElem?_map, List.getElem?_range hlt]
      show E.volume l * f (l * 3 + k) - 0 - E.volume l * f (l * 3 + k) = -0
      ring
    · rw [if_neg hc, if_neg hc, x2 fun hcon => hc ⟨_, hlid, hcon⟩]
      show E.volume l * 0 - _ - E.volume l * f (l * 3 + k) = -_
      ring
  rw [e, abs_neg]
  have hsum : 21 * |∑ l ∈ Finset.range E.C.owned.length, if Fixed E l k then 0 else
      (f (l * 3 + k) + r.vecs .externalForce (l * 3 + k)) * E.volume l| ≤ ∑ l ∈ Finset.range E.C.owned.length, 100 * r.attempt.tol := by
    refine (mul_le_mul_of_nonneg_left (Finset.abs_sum_le_sum_abs _ _) (by norm_num)).trans ?_
    rw [Finset.mul_sum]
    refine Finset.sum_le_sum fun l hl => ?_
    have hl := Finset.mem_range.1 hl
    have hlid : BC.lid E.C.owned E.C.owned[l] = some l := by
      unfold BC.lid
      rw [if_pos (List.getElem_mem hl), hown.idxOf_getElem]
    split
    · rw [abs_zero, mul_zero]
      linarith
    · next hc => exact (hbal _ l k hlid hk fun hcon => hc ⟨_, hlid, hcon⟩).trans hbd'
  refine hsum.trans (le_of_eq ?_)
  rw [Finset.sum_const, Finset.card_range, nsmul_eq_mul]
  ring

/-- Forces of which every evaluation has total zero have no resultant. -/
theorem noResultant_of {V : Nat → ℝ} {N : Nat} {T : QuasiStatic.Solver σ ω}
    (h : ∀ M wk dt w wk' f, T.force M wk dt w = .ok (wk', f) → ∃ F, totalForce V F N = 0 ∧ ∀ l < N, at3 f l = F l) : NoResultant V N T := by
  intro M wk dt w wk' f hf k hk
  obtain ⟨F, h0, hl⟩ := h M wk dt w wk' f hf
  have h1 := congrFun h0 ⟨k, hk⟩
  unfold totalForce at h1
  rw [Finset.sum_apply] at h1
  refine Eq.trans (Finset.sum_congr rfl fun l hl' => ?_) h1
  rw [← hl l (Finset.mem_range.1 hl')]
  rfl

/-- **C269** The forces of the linear LPS material sum to zero in every evaluation. -/
theorem C269_linear (X : BC.Ctx) (C : Config) (K mu : ℝ) (S : Lps.Stored) (nbs : List (List Nat)) (ghost : (Nat → ℝ) → Nat → ℝ)
    (hw : Within nbs nbs.length) (T : QuasiStatic.Solver σ ω) (hT : Evaluates X C K mu S nbs ghost T) : NoResultant C.v nbs.length T :=
  noResultant_of fun M wk dt w wk' f hf => by
    obtain ⟨F, ⟨th, hF⟩, hl⟩ := hT M wk dt w wk' f hf
    exact ⟨F, Lps.C135_force hF hw, hl⟩

/-- **C269** So do those of the elastic material. -/
theorem C269_elastic (C : Config) (K mu : ℝ) (nbs : List (List Nat)) (hw : Within nbs nbs.length) (T : QuasiStatic.Solver σ ω)
    (hT : ∀ M wk dt w wk' f, T.force M wk dt w = .ok (wk', f) → ∃ th theta F,
      elasticMaterial { C with y := at3 (w .y) } K mu nbs.length (encode nbs) th = .ok (theta, F) ∧ ∀ l < nbs.length, at3 f l = F l) :
    NoResultant C.v nbs.length T :=
  noResultant_of fun M wk dt w wk' f hf => by
    obtain ⟨th, theta, F, hF, hl⟩ := hT M wk dt w wk' f hf
    exact ⟨F, C17_elastic { C with y := at3 (w .y) } K mu nbs th theta F _ hw hF, hl⟩

/-- The bar of two points meets the hypotheses of `C269_linear`. -/
example (S : Lps.Stored) : Within Lps.barNbs Lps.barNbs.length ∧ Evaluates heldBar.C (Lps.bar 0 0) 1 1 S Lps.barNbs (fun t => t) (heldSolver S) :=
  ⟨Lps.bar_within, held_evaluates S⟩

theorem at3_flat (F : Nat → V3) (l : Nat) : at3 (fun i => F (i / 3) ⟨i % 3, by omega⟩) l = F l := by
  funext k
  have e1 : (l * 3 + (k : Nat)) / 3 = l := by have := k.isLt; omega
  have e2 : (⟨(l * 3 + (k : Nat)) % 3, by omega⟩ : Fin 3) = k := by
    apply Fin.ext; have := k.isLt; show (l * 3 + (k : Nat)) % 3 = k; omega
  simp only [at3, e1, e2]

/-- A solver with the forces of the elastic material on three points. -/
def lineSolver : QuasiStatic.Solver Unit Unit :=
  { QuasiStatic.demoSolver (fun _ => False) with
    force := fun _ _ _ w =>
      match elasticMaterial { demo with y := at3 (w .y) } 1 1 demoNbs.length (encode demoNbs) 0 with
      | .ok (_, F) => .ok ((), fun i => F (i / 3) ⟨i % 3, by omega⟩)
      | .fail e => .fail e
      | .ub => .ub }

/-- It meets the hypotheses of `C269_elastic`, and gives forces for points that are out of equilibrium. -/
example : Within demoNbs demoNbs.length ∧
    (∀ M wk dt w wk' f, lineSolver.force M wk dt w = .ok (wk', f) → ∃ th theta F,
      elasticMaterial { demo with y := at3 (w .y) } 1 1 demoNbs.length (encode demoNbs) th = .ok (theta, F) ∧ ∀ l < demoNbs.length, at3 f l = F l) ∧
    ∃ w : BC.Vecs, at3 (w .y) = demo.y ∧ ∃ wk f, lineSolver.force () () 1 w = .ok (wk, f) := by
  refine ⟨demo_within, fun M wk dt w wk' f h => ?_, fun _ i => demo.y (i / 3) ⟨i % 3, by omega⟩, ?_, ?_⟩
  · change (match elasticMaterial { demo with y := at3 (w .y) } 1 1 demoNbs.length (encode demoNbs) 0 with
      | .ok (_, F) => .ok ((), fun i => F (i / 3) ⟨i % 3, by omega⟩)
      | .fail e => .fail e
      | .ub => .ub) = Outcome.ok (wk', f) at h
    split at h
    · next th F hF =>
      refine ⟨0, th, F, hF, fun l _ => ?_⟩
      have e := (Prod.ext_iff.1 (Outcome.ok.inj h)).2
      subst e
      exact at3_flat F l
    · cases h
    · cases h
  · funext l
    exact at3_flat demo.y l
  · obtain ⟨th, F, hF⟩ := elastic_defined demo_proper 1 1 0
    have e : at3 (fun i => demo.y (i / 3) ⟨i % 3, by omega⟩) = demo.y := funext fun l => at3_flat demo.y l
    refine ⟨(), fun i => F (i / 3) ⟨i % 3, by omega⟩, ?_⟩
    show (match elasticMaterial { demo with y := at3 (fun i => demo.y (i / 3) ⟨i % 3, by omega⟩) } 1 1 demoNbs.length (encode demoNbs) 0 with
      | .ok (_, F) => .ok ((), fun i => F (i / 3) ⟨i % 3, by omega⟩)
      | .fail e => .fail e
      | .ub => .ub) = Outcome.ok _
    rw [e]
    have hF' : elasticMaterial { demo with y := demo.y } 1 1 demoNbs.length (encode demoNbs) 0 = .ok (th, F) := hF
    rw [hF']

/-! ## A bar that is held at one end and pulled at the other -/

/-- The first point of the bar stays. -/
def hold : BC.Definition where
  type := .prescribedDisplacement
  nodeSet := "A"
  coord := 0
  value := fun _ _ _ _ => some 0

/-- The two points of the bar, the first held and the second pulled. -/
def hungBar (c : ℝ) : QuasiStatic.Env where
  C := (pulledBar c).C
  cs := { boundary := [BC.obj hold .deltaU (.increment 1 0 false), BC.obj hold .v (.increment 0 1 false)]
          force := [BC.obj (pull "B" c) .externalForce .dirichlet] }
  dofs := BC.dispOnly
  volume := fun _ => 1

theorem hung_conditions (c : ℝ) : BC.makeConditions [hold, pull "B" c] = .ok (hungBar c).cs := by
  show List.foldlM _ _ [_, _] = _
  rw [List.foldlM_cons]
  simp [BC.addDefinition, hold, pull, BC.construct, hungBar, BC.obj, BC.dim, Outcome.ok_bind]

/-- The vectors with the body force. -/
def hungVecs (c : ℝ) (w : BC.Vecs) : BC.Vecs := BC.write (BC.clearForce w) .externalForce 3 c

theorem hung_forces (c tc tp : ℝ) (w : BC.Vecs) : BC.applyForces (hungBar c).C (hungBar c).cs.force tc tp w = .ok (hungVecs c w) := rfl

theorem hung_zeroed (c : ℝ) (q : Nat → ℝ) :
    QuasiStatic.zeroed (hungBar c) q = .ok fun i => ([0, q 1, q 2, q 3, q 4, q 5] : List ℝ).getD i 0 := rfl

theorem hung_start (c : ℝ) (w : BC.Vecs) : BC.applyBoundary (hungBar c).C (hungBar c).cs.boundary 0 0 w = .ok w := by
  unfold BC.applyBoundary
  have : ∀ q ∈ (hungBar c).cs.boundary, ∀ s, BC.apply (hungBar c).C 0 0 s q = .ok s := by
    intro q hq s
    simp only [hungBar, List.mem_cons, List.not_mem_nil, or_false] at hq
    rcases hq with rfl | rfl <;> (unfold BC.apply BC.skips; simp [BC.obj])
  show List.foldlM _ _ [_, _] = _
  rw [List.foldlM_cons, this _ (by simp [hungBar])]
  simp only [Outcome.ok_bind]
  rw [List.foldlM_cons, this _ (by simp [hungBar])]
  rfl

theorem hung_boundary (c : ℝ) (w : BC.Vecs) (hu : w .u 0 = 0) :
    BC.applyBoundary (hungBar c).C (hungBar c).cs.boundary 1 0 w = .ok (BC.write (BC.write w .deltaU 0 0) .v 0 0) := by
  unfold BC.applyBoundary
  show List.foldlM _ _ [_, _] = _
  simp [BC.apply, BC.skips, BC.applyToSet, BC.applyNode, BC.lid, BC.nodeValue, BC.evaluateParser, BC.callFunction, BC.incrementValue, BC.previousTime,
    BC.obj, hold, hungBar, pulledBar, Outcome.ok_bind, BC.dim, BC.write, hu]

theorem hung_balance {S : Lps.Stored} (hS : Lps.SetUp (Lps.bar 0 0) Lps.barNbs S) (c dt : ℝ) (w : BC.Vecs)
    (hext : w .externalForce = hungVecs c w .externalForce) (hy : ∀ i, w .y i - heldBar.C.x i = if i = 3 then c / 18 else 0) :
    ∃ f, QuasiStatic.balance (hungBar c) (heldSolver S) () () dt w = .ok { work := (), force := f, residual := fun _ => 0 } := by
  obtain ⟨wk, f, hf⟩ := barEval_defined hS () 0 fun _ i => w .y i - heldBar.C.x i
  obtain ⟨th, F, hF, hl⟩ := barEval_lps S () 0 _ _ f hf
  obtain ⟨b0, b1⟩ := bar_displaced hS hF
  have f0 := hl 0 (by decide)
  have f1 := hl 1 (by decide)
  rw [b0] at f0
  rw [b1] at f1
  have hd : at3 (fun i => w .y i - heldBar.C.x i) 1 0 - at3 (fun i => w .y i - heldBar.C.x i) 0 0 = c / 18 := by
    show (w .y 3 - heldBar.C.x 3) - (w .y 0 - heldBar.C.x 0) = _
    rw [hy, hy, if_pos rfl, if_neg (by decide), sub_zero]
  have c1 : f 1 = 0 := congrFun f0 1
  have c2 : f 2 = 0 := congrFun f0 2
  have c3 : f 3 = -(18 * (at3 (fun i => w .y i - heldBar.C.x i) 1 0 - at3 (fun i => w .y i - heldBar.C.x i) 0 0)) := congrFun f1 0
  have c4 : f 4 = 0 := congrFun f1 1
  have c5 : f 5 = 0 := congrFun f1 2
  rw [hd] at c3
  have hz : QuasiStatic.zeroed (hungBar c) (fun i => (f i + w .externalForce i) * (hungBar c).volume (i / 3)) = .ok fun _ => 0 := by
    rw [hung_zeroed]
    congr 1
    funext i
    rw [hext]
    match i with
    | 0 => rfl
    | 1 => show (f 1 + hungVecs c w .externalForce 1) * _ = 0; rw [c1]; simp [hungVecs, BC.write, BC.clearForce]
    | 2 => show (f 2 + hungVecs c w .externalForce 2) * _ = 0; rw [c2]; simp [hungVecs, BC.write, BC.clearForce]
    | 3 => show (f 3 + hungVecs c w .externalForce 3) * (1 : ℝ) = 0; rw [c3]; simp [hungVecs, BC.write]; ring
    | 4 => show (f 4 + hungVecs c w .externalForce 4) * _ = 0; rw [c4]; simp [hungVecs, BC.write, BC.clearForce]
    | 5 => show (f 5 + hungVecs c w .externalForce 5) * _ = 0; rw [c5]; simp [hungVecs, BC.write, BC.clearForce]
    | _ + 6 => rfl
  refine ⟨f, ?_⟩
  unfold QuasiStatic.balance
  have : (heldSolver S).force () () dt w = .ok (wk, f) := hf
  rw [this]
  simp only [Outcome.ok_bind]
  rw [hz]
  rfl

/-- The forces of the bar sum to zero. -/
theorem bar_cancels {S : Lps.Stored} (hS : Lps.SetUp (Lps.bar 0 0) Lps.barNbs S) : NoResultant (fun _ => 1) 2 (heldSolver S) := by
  intro M wk dt w wk' f h k hk
  have h' : barEval S () 0 (fun _ i => w .y i - heldBar.C.x i) = .ok (wk', f) := h
  obtain ⟨th, F, hF, hl⟩ := barEval_lps S () 0 _ _ f h'
  obtain ⟨b0, b1⟩ := bar_displaced hS hF
  have f0 := hl 0 (by decide)
  have f1 := hl 1 (by decide)
  rw [b0] at f0
  rw [b1] at f1
  have c0 : f (0 * 3 + k) = _ := congrFun f0 ⟨k, hk⟩
  have c1 : f (1 * 3 + k) = _ := congrFun f1 ⟨k, hk⟩
  rw [Finset.sum_range_succ, Finset.sum_range_one, c0, c1]
  match k, hk with
  | 0, _ => simp
  | 1, _ => simp
  | 2, _ => simp

/-- One load step to the time one. -/
theorem hung_completed {S : Lps.Stored} (hS : Lps.SetUp (Lps.bar 0 0) Lps.barNbs S) (c : ℝ) :
    ∃ r : QuasiStatic.Record Unit, Completed exactParams (hungBar c) (heldSolver S) 0 (stretched c) r ∧ r.attempt.tol = 0 ∧
      r.vecs .externalForce 3 = c := by
  let w0 : BC.Vecs := hungVecs c (Explicit.setVec (stretched c) .v fun _ => 0)
  let s0 : QuasiStatic.State Unit Unit :=
    { times := [0, 1], step := 1, timeCurrent := 0, timePrevious := 0, failed := false, failedInStep := false, inStep := 0, total := 0,
      vecs := w0, predictor := QuasiStatic.firstPredictor exactParams (stretched c), N := (), work := (), log := [] }
  have hst : QuasiStatic.start exactParams (hungBar c) [0, 1] (stretched c) () () = .ok (1, s0) := by
    unfold QuasiStatic.start
    simp only
    rw [if_neg (by simp [QuasiStatic.badLimits, QuasiStatic.demoParams, exactParams]), hung_start]
    rfl
  let w1 : BC.Vecs := BC.write (BC.write (Explicit.setVec w0 .deltaU fun _ => 0) .deltaU 0 0) .v 0 0
  let w2 : BC.Vecs := hungVecs c w1
  let w3 : BC.Vecs :=
    Explicit.setVec (Explicit.setVec w2 .y fun i => (hungBar c).C.x i + w2 .u i + w2 .deltaU i) .v fun i => w2 .deltaU i / (1 - 0)
  have hplace : QuasiStatic.place (hungBar c) (1 - 0) w2 = .ok w3 := by
    unfold QuasiStatic.place
    rw [if_neg (by norm_num)]
  have hu : ∀ i, w2 .u i = if i = 3 then c / 18 else 0 := by
    intro i
    simp [w2, w1, w0, hungVecs, BC.write, BC.clearForce, Explicit.setVec, stretched]
  have hdu : ∀ i, w2 .deltaU i = 0 := by
    intro i
    simp [w2, w1, w0, hungVecs, BC.write, BC.clearForce, Explicit.setVec]
  obtain ⟨f, hbal⟩ := hung_balance hS c (1 - 0) w3
    (by funext i; simp [w3, w2, hungVecs, BC.write, BC.clearForce, Explicit.setVec])
    (by
      intro i
      show Explicit.setVec _ _ _ _ _ - _ = _
      rw [Explicit.setVec_ne _ _ (by decide)]
      show (hungBar c).C.x i + w2 .u i + w2 .deltaU i - heldBar.C.x i = _
      rw [hu, hdu]
      show (if i = 3 then (1 : ℝ) else 0) + _ + 0 - (if i = 3 then (1 : ℝ) else 0) = _
      ring)
  have hn : QuasiStatic.residualNorm (hungBar c) (fun _ => 0) = 0 := by
    unfold QuasiStatic.residualNorm QuasiStatic.norm2
    rw [QuasiStatic.normInf_zero]
    simp
  let a : QuasiStatic.Attempt Unit := ⟨⟨w3, ⟨(), f, fun _ => 0⟩, QuasiStatic.residualNorm (hungBar c) fun _ => 0⟩, 0 * 1⟩
  have hatt : QuasiStatic.attempt exactParams (hungBar c) (heldSolver S) () () s0.predictor s0.vecs 1 0 1 = .ok a := by
    have : QuasiStatic.attempt exactParams (hungBar c) (heldSolver S) () () s0.predictor s0.vecs 1 0 1 = (do
        let t ← QuasiStatic.newton exactParams (hungBar c) (heldSolver S) () s0.predictor (1 - 0) 1 (0 * 1) 1 1
          { vecs := w3, bal := ⟨(), f, fun _ => 0⟩, norm := QuasiStatic.residualNorm (hungBar c) fun _ => 0 }
        .ok { iter := t, tol := 0 * 1 }) := by
      unfold QuasiStatic.attempt
      have h1 : BC.applyBoundary (hungBar c).C (hungBar c).cs.boundary 1 0 (Explicit.setVec s0.vecs .deltaU fun _ => 0) = .ok w1 :=
        hung_boundary c _ (by simp [s0, w0, hungVecs, BC.write, BC.clearForce, Explicit.setVec, stretched])
      rw [h1]; simp only [Outcome.ok_bind]
      rw [hung_forces]; simp only [Outcome.ok_bind]
      rw [hplace]; simp only [Outcome.ok_bind]
      rw [hbal]
      rfl
    rw [this]
    unfold QuasiStatic.newton
    rw [if_neg (by rw [hn]; norm_num)]
    rfl
  have hacc : QuasiStatic.accepts a = true := by
    unfold QuasiStatic.accepts
    simp only [a, hn]
    simp
  have hp : QuasiStatic.pass exactParams (hungBar c) (heldSolver S) 1 s0 = .ok (.again (QuasiStatic.commit (heldSolver S) s0 [0, 1] 0 1 a)) := by
    unfold QuasiStatic.pass
    show (do
      let a ← QuasiStatic.attempt exactParams (hungBar c) (heldSolver S) () () s0.predictor s0.vecs 1 0 1
      _ : Outcome (QuasiStatic.Next Unit Unit)) = _
    rw [hatt]
    simp only [Outcome.ok_bind]
    rw [if_pos hacc]
    rfl
  have hrun : QuasiStatic.run exactParams (hungBar c) (heldSolver S) 1 1 s0 = .ok (.again (QuasiStatic.commit (heldSolver S) s0 [0, 1] 0 1 a)) := by
    rw [QuasiStatic.run, hp]
    rfl
  refine ⟨_, ⟨[1], (), (), 1, s0, 1, _, hst, hrun, List.mem_cons_self ..⟩, zero_mul 1, ?_⟩
  simp [a, w3, w2, hungVecs, BC.write, Explicit.setVec]

/-- A bar that is held at one end and pulled at the other meets the hypotheses of C269, and the body force on the free end is not zero. -/
example : ∃ (S : Lps.Stored) (r : QuasiStatic.Record Unit), BC.makeConditions [hold, pull "B" 1] = .ok (hungBar 1).cs ∧
    (hungBar 1).dofs = BC.dispOnly ∧ (hungBar 1).C.owned.Nodup ∧ BC.SetsFound (hungBar 1).dofs (hungBar 1).C.sets (hungBar 1).cs.boundary ∧
    NoResultant (hungBar 1).volume (hungBar 1).C.owned.length (heldSolver S) ∧
    Completed exactParams (hungBar 1) (heldSolver S) 0 (stretched 1) r ∧ r.attempt.tol = 0 ∧ carried (hungBar 1) (r.vecs .externalForce) 0 = 1 := by
  obtain ⟨S, hS⟩ := Lps.setUp_exists (Lps.bar 0 0) Lps.barNbs
  obtain ⟨r, h, ht, he⟩ := hung_completed hS 1
  refine ⟨S, r, hung_conditions 1, rfl, (by decide : [0, 1].Nodup), ?_, bar_cancels hS, h, ht, ?_⟩
  · intro q hq _ _ _
    simp only [hungBar, List.mem_cons, List.not_mem_nil, or_false] at hq
    rcases hq with rfl | rfl <;> exact ⟨[0], rfl⟩
  · have h0 : Fixed (hungBar 1) 0 0 := ⟨0, rfl, rfl, BC.obj hold .deltaU (.increment 1 0 false), List.mem_cons_self .., rfl, rfl, [0], rfl, by simp⟩
    have h1 : ¬ Fixed (hungBar 1) 1 0 := by
      rintro ⟨g, hg, -, q, hq, -, -, nodes, hs, hn⟩
      simp only [hungBar, List.mem_cons, List.not_mem_nil, or_false] at hq
      rcases hq with rfl | rfl <;>
        (simp [hungBar, pulledBar, BC.obj, hold] at hs; subst hs; rw [List.mem_singleton.1 hn] at hg; exact absurd hg (by decide))
    unfold carried
    show ∑ l ∈ Finset.range 2, _ = _
    rw [Finset.sum_range_succ, Finset.sum_range_one, if_pos h0, if_neg h1]
    show 0 + (1 : ℝ) * r.vecs .externalForce 3 = 1
    rw [he]
    norm_num

end Verif.Conserve
