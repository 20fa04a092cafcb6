import Verif.Conserve.LoadProps

/-! C266: reciprocity of loads and displacements. -/

noncomputable section

namespace Verif.Conserve

open Verif Verif.Neigh Verif.Mech

variable {ω ω' : Type}

/-- **C266** If in each of two solutions the displacements are zero where the other analysis prescribes displacements, then the body forces of the
first do the same work on the displacements of the second as those of the second on the displacements of the first. -/
theorem C266_reciprocal (C : Config) (K mu : ℝ) (S : Lps.Stored) (nbs : List (List Nat))
    (hN : Within nbs nbs.length) (ghost : (Nat → ℝ) → Nat → ℝ) (E E' : QuasiStatic.Env) (ds ds' : List BC.Definition)
    (r : QuasiStatic.Record ω) (r' : QuasiStatic.Record ω') (h : Exact C K mu S nbs ghost E ds r) (h' : Exact C K mu S nbs ghost E' ds' r')
    (hz : ∀ l, ∀ k : Fin 3, Fixed E l k → r'.vecs .u (l * 3 + k) = 0) (hz' : ∀ l, ∀ k : Fin 3, Fixed E' l k → r.vecs .u (l * 3 + k) = 0) :
    ∑ l ∈ Finset.range nbs.length, C.v l * (at3 (r.vecs .externalForce) l ⬝ᵥ at3 (r'.vecs .u) l) =
      ∑ l ∈ Finset.range nbs.length, C.v l * (at3 (r'.vecs .externalForce) l ⬝ᵥ at3 (r.vecs .u) l) := by
  obtain ⟨F, ⟨th, hF⟩, hbal, -⟩ := exact_parts h
  obtain ⟨F', ⟨th', hF'⟩, hbal', -⟩ := exact_parts h'
  have hrec := Lps.C136_reciprocal hF hF' hN
  unfold Energy.power at hrec
  have key : ∀ (E : QuasiStatic.Env) (F : Nat → V3) (e u : Nat → ℝ)
      (_ : ∀ l < nbs.length, ∀ k : Fin 3, ¬ Fixed E l k → (F l k + at3 e l k) * C.v l = 0) (_ : ∀ l, ∀ k : Fin 3, Fixed E l k → u (l * 3 + k) = 0),
      ∑ l ∈ Finset.range nbs.length, C.v l * (at3 e l ⬝ᵥ at3 u l) = -∑ l ∈ Finset.range nbs.length, C.v l * (F l ⬝ᵥ at3 u l) := by
    intro E F e u hb hu
    rw [← Finset.sum_neg_distrib]
    refine Finset.sum_congr rfl fun l hl => ?_
    have hl := Finset.mem_range.mp hl
    unfold dotProduct
    rw [Finset.mul_sum, Finset.mul_sum, ← Finset.sum_neg_distrib]
    refine Finset.sum_congr rfl fun k _ => ?_
    by_cases hc : Fixed E l k
    · have : at3 u l k = 0 := hu l k hc
      rw [this]
      ring
    · linear_combination at3 u l k * hb l hl k hc
  rw [key E F _ _ hbal hz, key E' F' _ _ hbal' hz', hrec]

/-! ## A bar that is pulled at both ends -/

/-- The body force `c` in the x direction. -/
def pull (set : String) (c : ℝ) : BC.Definition where
  type := .bodyForce
  nodeSet := set
  coord := 0
  value := fun _ _ _ _ => some c

/-- The two points of the bar, pulled apart. -/
def pulledBar (c : ℝ) : QuasiStatic.Env where
  C := { owned := [0, 1], sets := fun s => if s = "A" then some [0] else if s = "B" then some [1] else none, x := fun i => if i = 3 then 1 else 0 }
  cs := { force := [BC.obj (pull "A" (-c)) .externalForce .dirichlet, BC.obj (pull "B" c) .externalForce .dirichlet] }
  dofs := BC.dispOnly
  volume := fun _ => 1

theorem pulled_conditions (c : ℝ) : BC.makeConditions [pull "A" (-c), pull "B" c] = .ok (pulledBar c).cs := by
  show List.foldlM _ _ [_, _] = _
  rw [List.foldlM_cons]
  simp [BC.addDefinition, pull, BC.construct, pulledBar, BC.obj, BC.dim, Outcome.ok_bind]

/-- The vectors with the body forces. -/
def pulledVecs (c : ℝ) (w : BC.Vecs) : BC.Vecs := BC.write (BC.write (BC.clearForce w) .externalForce 0 (-c)) .externalForce 3 c

theorem pulled_forces (c tc tp : ℝ) (w : BC.Vecs) : BC.applyForces (pulledBar c).C (pulledBar c).cs.force tc tp w = .ok (pulledVecs c w) := by
  rfl

theorem pulled_zeroed (c : ℝ) (q : Nat → ℝ) :
    QuasiStatic.zeroed (pulledBar c) q = .ok fun i => ([q 0, q 1, q 2, q 3, q 4, q 5] : List ℝ).getD i 0 := rfl

/-- The displacements with which the bar is in equilibrium. -/
def stretched (c : ℝ) : BC.Vecs := fun t i => if t = .u ∧ i = 3 then c / 18 else 0

theorem pulled_balance {S : Lps.Stored} (hS : Lps.SetUp (Lps.bar 0 0) Lps.barNbs S) (c dt : ℝ) (w : BC.Vecs)
    (hext : w .externalForce = pulledVecs c w .externalForce) (hy : ∀ i, w .y i - heldBar.C.x i = if i = 3 then c / 18 else 0) :
    ∃ f, QuasiStatic.balance (pulledBar c) (heldSolver S) () () dt w = .ok { work := (), force := f, residual := fun _ => 0 } := by
  obtain ⟨wk, f, hf⟩ := barEval_defined hS () 0 fun _ i => w .y i - heldBar.C.x i
  obtain ⟨th, F, hF, hl⟩ := barEval_lps S () 0 _ _ f hf
  obtain ⟨b0, b1⟩ := bar_displaced hS hF
  have f0 := hl 0 (by decide)
  have f1 := hl 1 (by decide)
  rw [b0] at f0
  rw [b1] at f1
  have hd : at3 (fun i => w .y i - heldBar.C.x i) 1 0 - at3 (fun i => w .y i - heldBar.C.x i) 0 0 = c / 18 := by
    show (w .y 3 - heldBar.C.x 3) - (w .y 0 - heldBar.C.x 0) = _
    rw [hy, hy, if_pos rfl, if_neg (by decide), sub_zero]
  have c0 : f 0 = 18 * (at3 (fun i => w .y i - heldBar.C.x i) 1 0 - at3 (fun i => w .y i - heldBar.C.x i) 0 0) := congrFun f0 0
  have c1 : f 1 = 0 := congrFun f0 1
  have c2 : f 2 = 0 := congrFun f0 2
  have c3 : f 3 = -(18 * (at3 (fun i => w .y i - heldBar.C.x i) 1 0 - at3 (fun i => w .y i - heldBar.C.x i) 0 0)) := congrFun f1 0
  have c4 : f 4 = 0 := congrFun f1 1
  have c5 : f 5 = 0 := congrFun f1 2
  rw [hd] at c0 c3
  have hz : QuasiStatic.zeroed (pulledBar c) (fun i => (f i + w .externalForce i) * (pulledBar c).volume (i / 3)) = .ok fun _ => 0 := by
    rw [pulled_zeroed]
    congr 1
    funext i
    rw [hext]
    match i with
    | 0 => show (f 0 + pulledVecs c w .externalForce 0) * (1 : ℝ) = 0; rw [c0]; simp [pulledVecs, BC.write]; ring
    | 1 => show (f 1 + pulledVecs c w .externalForce 1) * _ = 0; rw [c1]; simp [pulledVecs, BC.write, BC.clearForce]
    | 2 => show (f 2 + pulledVecs c w .externalForce 2) * _ = 0; rw [c2]; simp [pulledVecs, BC.write, BC.clearForce]
    | 3 => show (f 3 + pulledVecs c w .externalForce 3) * (1 : ℝ) = 0; rw [c3]; simp [pulledVecs, BC.write]; ring
    | 4 => show (f 4 + pulledVecs c w .externalForce 4) * _ = 0; rw [c4]; simp [pulledVecs, BC.write, BC.clearForce]
    | 5 => show (f 5 + pulledVecs c w .externalForce 5) * _ = 0; rw [c5]; simp [pulledVecs, BC.write, BC.clearForce]
    | _ + 6 => rfl
  refine ⟨f, ?_⟩
  unfold QuasiStatic.balance
  have : (heldSolver S).force () () dt w = .ok (wk, f) := hf
  rw [this]
  simp only [Outcome.ok_bind]
  rw [hz]
  rfl

/-- One load step to the time one. -/
theorem pulled_exact {S : Lps.Stored} (hS : Lps.SetUp (Lps.bar 0 0) Lps.barNbs S) (c : ℝ) :
    ∃ r : QuasiStatic.Record Unit, Exact (Lps.bar 0 0) 1 1 S Lps.barNbs (fun t => t) (pulledBar c) [pull "A" (-c), pull "B" c] r ∧
      r.vecs .externalForce 3 = c ∧ r.vecs .u 3 = c / 18 ∧ r.vecs .externalForce 0 = -c ∧ r.vecs .u 0 = 0 := by
  let w0 : BC.Vecs := pulledVecs c (Explicit.setVec (stretched c) .v fun _ => 0)
  let s0 : QuasiStatic.State Unit Unit :=
    { times := [0, 1], step := 1, timeCurrent := 0, timePrevious := 0, failed := false, failedInStep := false, inStep := 0, total := 0,
      vecs := w0, predictor := QuasiStatic.firstPredictor exactParams (stretched c), N := (), work := (), log := [] }
  have hst : QuasiStatic.start exactParams (pulledBar c) [0, 1] (stretched c) () () = .ok (1, s0) := by
    unfold QuasiStatic.start
    simp only
    rw [if_neg (by simp [QuasiStatic.badLimits, QuasiStatic.demoParams, exactParams])]
    rfl
  let w2 : BC.Vecs := pulledVecs c (Explicit.setVec w0 .deltaU fun _ => 0)
  let w3 : BC.Vecs :=
    Explicit.setVec (Explicit.setVec w2 .y fun i => (pulledBar c).C.x i + w2 .u i + w2 .deltaU i) .v fun i => w2 .deltaU i / (1 - 0)
  have hplace : QuasiStatic.place (pulledBar c) (1 - 0) w2 = .ok w3 := by
    unfold QuasiStatic.place
    rw [if_neg (by norm_num)]
  have hu : ∀ i, w2 .u i = if i = 3 then c / 18 else 0 := by
    intro i
    simp [w2, w0, pulledVecs, BC.write, BC.clearForce, Explicit.setVec, stretched]
  have hdu : ∀ i, w2 .deltaU i = 0 := by
    intro i
    simp [w2, w0, pulledVecs, BC.write, BC.clearForce, Explicit.setVec]
  obtain ⟨f, hbal⟩ := pulled_balance hS c (1 - 0) w3
    (by funext i; simp [w3, w2, pulledVecs, BC.write, BC.clearForce, Explicit.setVec])
    (by
      intro i
      show Explicit.setVec _ _ _ _ _ - _ = _
      rw [Explicit.setVec_ne _ _ (by decide)]
      show (pulledBar c).C.x i + w2 .u i + w2 .deltaU i - heldBar.C.x i = _
      rw [hu, hdu]
      show (if i = 3 then (1 : ℝ) else 0) + _ + 0 - (if i = 3 then (1 : ℝ) else 0) = _
      ring)
  have hn : QuasiStatic.residualNorm (pulledBar c) (fun _ => 0) = 0 := by
    unfold QuasiStatic.residualNorm QuasiStatic.norm2
    rw [QuasiStatic.normInf_zero]
    simp
  let a : QuasiStatic.Attempt Unit := ⟨⟨w3, ⟨(), f, fun _ => 0⟩, QuasiStatic.residualNorm (pulledBar c) fun _ => 0⟩, 0 * 1⟩
  have hatt : QuasiStatic.attempt exactParams (pulledBar c) (heldSolver S) () () s0.predictor s0.vecs 1 0 1 = .ok a := by
    have : QuasiStatic.attempt exactParams (pulledBar c) (heldSolver S) () () s0.predictor s0.vecs 1 0 1 = (do
        let t ← QuasiStatic.newton exactParams (pulledBar c) (heldSolver S) () s0.predictor (1 - 0) 1 (0 * 1) 1 1
          { vecs := w3, bal := ⟨(), f, fun _ => 0⟩, norm := QuasiStatic.residualNorm (pulledBar c) fun _ => 0 }
        .ok { iter := t, tol := 0 * 1 }) := by
      unfold QuasiStatic.attempt
      have h1 : BC.applyBoundary (pulledBar c).C (pulledBar c).cs.boundary 1 0 (Explicit.setVec s0.vecs .deltaU fun _ => 0) =
        .ok (Explicit.setVec s0.vecs .deltaU fun _ => 0) := rfl
      rw [h1]; simp only [Outcome.ok_bind]
      rw [pulled_forces]; simp only [Outcome.ok_bind]
      rw [hplace]; simp only [Outcome.ok_bind]
      rw [hbal]
      rfl
    rw [this]
    unfold QuasiStatic.newton
    rw [if_neg (by rw [hn]; norm_num)]
    rfl
  have hacc : QuasiStatic.accepts a = true := by
    unfold QuasiStatic.accepts
    simp only [a, hn]
    simp
  have hp : QuasiStatic.pass exactParams (pulledBar c) (heldSolver S) 1 s0 = .ok (.again (QuasiStatic.commit (heldSolver S) s0 [0, 1] 0 1 a)) := by
    unfold QuasiStatic.pass
    show (do
      let a ← QuasiStatic.attempt exactParams (pulledBar c) (heldSolver S) () () s0.predictor s0.vecs 1 0 1
      _ : Outcome (QuasiStatic.Next Unit Unit)) = _
    rw [hatt]
    simp only [Outcome.ok_bind]
    rw [if_pos hacc]
    rfl
  have hrun : QuasiStatic.run exactParams (pulledBar c) (heldSolver S) 1 1 s0 = .ok (.again (QuasiStatic.commit (heldSolver S) s0 [0, 1] 0 1 a)) := by
    rw [QuasiStatic.run, hp]
    rfl
  have hbeg : Begins (pulledBar c) [pull "A" (-c), pull "B" c] 0 (stretched c) := by
    intro d hd hty
    simp only [List.mem_cons, List.not_mem_nil, or_false] at hd
    rcases hd with rfl | rfl <;> exact absurd hty (by simp [pull])
  refine ⟨_, ⟨pulled_conditions c, rfl, (by decide : [0, 1].Nodup), rfl, fun _ _ => rfl, zero_mul 1, Unit, exactParams, heldSolver S, 0, stretched c,
    held_evaluates S, hbeg, [1], (), (), 1, s0, 1, _, hst, hrun, List.mem_cons_self ..⟩, ?_, ?_, ?_, ?_⟩
  all_goals simp [a, w3, w2, w0, pulledVecs, BC.write, BC.clearForce, Explicit.setVec, stretched]

/-- Bars that are pulled with different forces meet the hypotheses of C266, and the work is not zero. -/
example : ∃ (S : Lps.Stored) (r r' : QuasiStatic.Record Unit),
    Exact (Lps.bar 0 0) 1 1 S Lps.barNbs (fun t => t) (pulledBar 1) [pull "A" (-1), pull "B" 1] r ∧
    Exact (Lps.bar 0 0) 1 1 S Lps.barNbs (fun t => t) (pulledBar 2) [pull "A" (-2), pull "B" 2] r' ∧ Within Lps.barNbs Lps.barNbs.length ∧
    (∀ l, ∀ k : Fin 3, Fixed (pulledBar 1) l k → r'.vecs .u (l * 3 + k) = 0) ∧
    (∀ l, ∀ k : Fin 3, Fixed (pulledBar 2) l k → r.vecs .u (l * 3 + k) = 0) ∧ r.vecs .externalForce 3 * r'.vecs .u 3 = 1 / 9 := by
  obtain ⟨S, hS⟩ := Lps.setUp_exists (Lps.bar 0 0) Lps.barNbs
  obtain ⟨r, h, he, hu, -⟩ := pulled_exact hS 1
  obtain ⟨r', h', he', hu', -⟩ := pulled_exact hS 2
  have hno : ∀ c l k, ¬ Fixed (pulledBar c) l k := by
    rintro c l k ⟨g, -, -, q, hq, -⟩
    simp [pulledBar] at hq
  exact ⟨S, r, r', h, h', Lps.bar_within, fun l k q => absurd q (hno _ _ _), fun l k q => absurd q (hno _ _ _), by rw [he, hu']; norm_num⟩

end Verif.Conserve
