import Verif.Conserve.UniqueSpec
import Verif.Conserve.Props
import Verif.QuasiStatic.SolveProps

/-! C260: quasi-static solutions of the linear material are unique. -/

noncomputable section

namespace Verif.Conserve

open Verif Verif.Neigh Verif.Mech

variable {σ ω σ' ω' : Type}

theorem last_with {α : Type} (p : α → Prop) : ∀ l : List α, (∃ d ∈ l, p d) → ∃ pre d post, l = pre ++ d :: post ∧ p d ∧ ∀ d' ∈ post, ¬ p d' := by
  intro l
  induction l with
  | nil => rintro ⟨d, hd, -⟩; simp at hd
  | cons a l ih =>
    intro h
    by_cases hl : ∃ d ∈ l, p d
    · obtain ⟨pre, d, post, e, h1, h2⟩ := ih hl
      exact ⟨a :: pre, d, post, by rw [e]; rfl, h1, h2⟩
    · obtain ⟨d, hd, hp⟩ := h
      rcases List.mem_cons.1 hd with rfl | hd
      · exact ⟨[], d, l, rfl, hp, fun d' hd' hp' => hl ⟨d', hd', hp'⟩⟩
      · exact absurd ⟨d, hd, hp⟩ hl

theorem boundaryOf_mem {d : BC.Definition} {c : BC.Condition} (h : c ∈ BC.boundaryOf d) :
    c.type = d.type ∧ c.nodeSet = d.nodeSet ∧ c.coord = d.coord := by
  unfold BC.boundaryOf at h
  cases ht : d.type <;> rw [ht] at h <;> simp only [List.mem_cons, List.not_mem_nil, or_false] at h
  all_goals first
    | exact h.elim
    | (rcases h with rfl | rfl <;> exact ⟨ht, rfl, rfl⟩)
    | (subst h; exact ⟨ht, rfl, rfl⟩)

/-- What holds at a completed load step. -/
theorem completed_parts {P : QuasiStatic.Params} {E : QuasiStatic.Env} {T : QuasiStatic.Solver σ ω} {ds : List BC.Definition}
    (hcs : BC.makeConditions ds = .ok E.cs) (hm : E.dofs = BC.dispOnly) {C : Config} {K mu : ℝ} {S : Lps.Stored} {nbs : List (List Nat)}
    {ghost : (Nat → ℝ) → Nat → ℝ} (hT : Evaluates E.C C K mu S nbs ghost T) {t0 : ℝ} {vecs : BC.Vecs} {r : QuasiStatic.Record ω}
    (h : Completed P E T t0 vecs r) (hb : Begins E ds t0 vecs) (h0 : 0 ≤ r.attempt.tol) (h1 : r.attempt.tol ≤ 10 ^ 48) :
    ∃ F, LpsForce C K mu S nbs ghost (r.vecs .u) F ∧
      (∀ g l k, BC.lid E.C.owned g = some l → ∀ hk : k < 3, l < nbs.length → ¬ BC.Constrained E.dofs E.C.sets E.cs.boundary g .displacement k →
        21 * |(F l ⟨k, hk⟩ + r.vecs .externalForce (l * 3 + k)) * E.volume l| ≤ 100 * r.attempt.tol) ∧
      (∀ g l k, BC.lid E.C.owned g = some l → BC.Constrained E.dofs E.C.sets E.cs.boundary g .displacement k →
        ∃ d ∈ ds, d.type = .prescribedDisplacement ∧ BC.Covers E.C.sets d g k) ∧
      (∀ g l k pre d post, BC.lid E.C.owned g = some l → ds = pre ++ d :: post → d.type = .prescribedDisplacement → BC.Covers E.C.sets d g k →
        (∀ d' ∈ post, d'.type = .prescribedDisplacement → ¬ BC.Covers E.C.sets d' g k) →
          d.value (E.C.x (l * 3)) (E.C.x (l * 3 + 1)) (E.C.x (l * 3 + 2)) r.time = some (r.vecs .u (l * 3 + k))) := by
  obtain ⟨rest, N, work, tf, s0, n, x, hst, hrun, hr⟩ := h
  obtain ⟨hy, N', wk, wk', w, f, bound, hf, hwy, -, hwe, hbal, hbd⟩ := QuasiStatic.C42_equilibrium P E T ds hcs hm _ vecs N work tf s0 hst n x hrun r hr
  obtain ⟨F, hF, hat⟩ := hT _ _ _ _ _ _ hf
  have hbd' : bound ≤ 100 * r.attempt.tol := by
    rcases hbd with h | h | h
    · linarith
    · exact h.le
    · exact absurd h1 (not_le.2 h)
  refine ⟨F, ?_, fun g l k hl hk hln hc => ?_, fun g l k hl hc => ?_,
    fun g l k pre d post hl he hty hcov hpost => ?_⟩
  · have : (fun i => w .y i - E.C.x i) = r.vecs .u := by
      funext i
      rw [hwy, hy]
      ring
    rwa [this] at hF
  · have := hbal g l k hl hk hc
    have e : F l ⟨k, hk⟩ = f (l * 3 + k) := by rw [← hat l hln]; rfl
    rw [e]
    exact this.trans hbd'
  · obtain ⟨-, c, hcm, hu, hco, nodes, hs, hg⟩ := hc
    rw [(BC.makeConditions_ok hcs).1] at hcm
    obtain ⟨d, hd, hcd⟩ := List.mem_flatMap.1 hcm
    obtain ⟨e1, e2, e3⟩ := boundaryOf_mem hcd
    have hty : d.type = .prescribedDisplacement := by
      rw [e1] at hu
      cases ht : d.type <;> rw [ht] at hu <;> simp [BC.unknownOf] at hu <;> rfl
    have hcov : BC.Covers E.C.sets d g k := ⟨by rw [← e3]; exact hco, nodes, by rw [← e2]; exact hs, hg⟩
    exact ⟨d, hd, hty, hcov⟩
  · exact (QuasiStatic.C70_follows P E T ds hcs hm _ t0 rest rfl vecs N work tf s0 hst n x hrun pre post d he hty g l k hl hcov hpost
      (hb d (by rw [he]; simp) hty g l k hl hcov)).1 r hr

/-- The body forces of completed load steps depend on the time only. -/
theorem completed_forces {P : QuasiStatic.Params} {E : QuasiStatic.Env} {T : QuasiStatic.Solver σ ω} {P' : QuasiStatic.Params}
    {T' : QuasiStatic.Solver σ' ω'} {ds : List BC.Definition} (hcs : BC.makeConditions ds = .ok E.cs) {t0 t0' : ℝ} {vecs vecs' : BC.Vecs}
    {r : QuasiStatic.Record ω} {r' : QuasiStatic.Record ω'} (h : Completed P E T t0 vecs r) (h' : Completed P' E T' t0' vecs' r')
    (ht : r.time = r'.time) {g l k : Nat} (hl : BC.lid E.C.owned g = some l) (hk : k < 3) :
    r.vecs .externalForce (l * 3 + k) = r'.vecs .externalForce (l * 3 + k) := by
  obtain ⟨rest, N, work, tf, s0, n, x, hst, hrun, hr⟩ := h
  obtain ⟨rest', N', work', tf', s0', n', x', hst', hrun', hr'⟩ := h'
  obtain ⟨a1, a2⟩ := QuasiStatic.C42_body_force P E T ds hcs _ vecs N work tf s0 hst n x hrun r hr g l k hl hk
  obtain ⟨b1, b2⟩ := QuasiStatic.C42_body_force P' E T' ds hcs _ vecs' N' work' tf' s0' hst' n' x' hrun' r' hr' g l k hl hk
  by_cases hex : ∃ d ∈ ds, d.type = .bodyForce ∧ BC.Covers E.C.sets d g k
  · obtain ⟨pre, d, post, e, ⟨h1, h2⟩, h3⟩ := last_with _ ds hex
    have q1 := a2 pre d post e h1 h2 fun d' hd' ht' hc' => h3 d' hd' ⟨ht', hc'⟩
    have q2 := b2 pre d post e h1 h2 fun d' hd' ht' hc' => h3 d' hd' ⟨ht', hc'⟩
    rw [ht, q2] at q1
    exact (Option.some.inj q1).symm
  · have hno : ∀ d ∈ ds, d.type = .bodyForce → ¬ BC.Covers E.C.sets d g k := fun d hd h1 h2 => hex ⟨d, hd, h1, h2⟩
    rw [a1 hno, b1 hno]

/-- The two analyses agree at the degrees of freedom with prescribed displacements. -/
theorem completed_prescribed {P P' : QuasiStatic.Params} {E : QuasiStatic.Env} {T : QuasiStatic.Solver σ ω} {T' : QuasiStatic.Solver σ' ω'}
    {ds : List BC.Definition} (hcs : BC.makeConditions ds = .ok E.cs) (hm : E.dofs = BC.dispOnly) {C : Config} {K mu : ℝ}
    {S : Lps.Stored} {nbs : List (List Nat)} {ghost : (Nat → ℝ) → Nat → ℝ} (hT : Evaluates E.C C K mu S nbs ghost T)
    (hT' : Evaluates E.C C K mu S nbs ghost T') {t0 t0' : ℝ} {vecs vecs' : BC.Vecs} (hb : Begins E ds t0 vecs) (hb' : Begins E ds t0' vecs')
    {r : QuasiStatic.Record ω} {r' : QuasiStatic.Record ω'} (h : Completed P E T t0 vecs r) (h' : Completed P' E T' t0' vecs' r')
    (ht : r.time = r'.time) (h0 : 0 ≤ r.attempt.tol) (h1 : r.attempt.tol ≤ 10 ^ 48) (h0' : 0 ≤ r'.attempt.tol) (h1' : r'.attempt.tol ≤ 10 ^ 48)
    {g l k : Nat} (hlid : BC.lid E.C.owned g = some l) (hc : BC.Constrained E.dofs E.C.sets E.cs.boundary g .displacement k) :
    r.vecs .u (l * 3 + k) = r'.vecs .u (l * 3 + k) := by
  obtain ⟨-, -, -, hfix, hval⟩ := completed_parts hcs hm hT h hb h0 h1
  obtain ⟨-, -, -, -, hval'⟩ := completed_parts hcs hm hT' h' hb' h0' h1'
  obtain ⟨d1, hd1, ht1, hc1⟩ := hfix _ l k hlid hc
  obtain ⟨pre, d, post, e, ⟨hdt, hdc⟩, hpost⟩ := last_with (fun d => d.type = .prescribedDisplacement ∧ BC.Covers E.C.sets d g k) ds
    ⟨d1, hd1, ht1, hc1⟩
  have hp : ∀ d' ∈ post, d'.type = .prescribedDisplacement → ¬ BC.Covers E.C.sets d' g k := fun d' h1 h2 h3 => hpost d' h1 ⟨h2, h3⟩
  have q1 := hval _ l k pre d post hlid e hdt hdc hp
  have q2 := hval' _ l k pre d post hlid e hdt hdc hp
  rw [ht, q2] at q1
  exact (Option.some.inj q1).symm

/-- **C260** Two quasi-static analyses of a body of the linear LPS material under the same boundary conditions and body forces, with whatever
load steps, solvers, heuristics and initial guesses, agree where their times agree, up to the tolerances: the work of the forces of the
difference of the displacements against this difference is at most 100/21 times the sum of the tolerances times the sum of its entries. -/
theorem C260_close (P P' : QuasiStatic.Params) (E : QuasiStatic.Env) (T : QuasiStatic.Solver σ ω) (T' : QuasiStatic.Solver σ' ω')
    (ds : List BC.Definition) (hcs : BC.makeConditions ds = .ok E.cs) (hm : E.dofs = BC.dispOnly) (hown : E.C.owned.Nodup) (C : Config) (K mu : ℝ)
    (S : Lps.Stored) (nbs : List (List Nat)) (hlen : E.C.owned.length = nbs.length) (hvol : ∀ l < nbs.length, E.volume l = C.v l)
    (ghost : (Nat → ℝ) → Nat → ℝ) (hT : Evaluates E.C C K mu S nbs ghost T) (hT' : Evaluates E.C C K mu S nbs ghost T')
    (t0 t0' : ℝ) (vecs vecs' : BC.Vecs) (hb : Begins E ds t0 vecs) (hb' : Begins E ds t0' vecs') (r : QuasiStatic.Record ω)
    (r' : QuasiStatic.Record ω') (h : Completed P E T t0 vecs r) (h' : Completed P' E T' t0' vecs' r') (ht : r.time = r'.time)
    (h0 : 0 ≤ r.attempt.tol) (h1 : r.attempt.tol ≤ 10 ^ 48) (h0' : 0 ≤ r'.attempt.tol) (h1' : r'.attempt.tol ≤ 10 ^ 48) :
    ∃ G, LpsForce C K mu S nbs ghost (fun i => r.vecs .u i - r'.vecs .u i) G ∧
      21 * -Energy.power C G (fun l => at3 (r.vecs .u) l - at3 (r'.vecs .u) l) nbs.length ≤
        100 * (r.attempt.tol + r'.attempt.tol) * ∑ l ∈ Finset.range nbs.length, ∑ k : Fin 3, |at3 (r.vecs .u) l k - at3 (r'.vecs .u) l k| := by
  obtain ⟨F, ⟨th, hF⟩, hbal, -, -⟩ := completed_parts hcs hm hT h hb h0 h1
  obtain ⟨F', ⟨th', hF'⟩, hbal', -, -⟩ := completed_parts hcs hm hT' h' hb' h0' h1'
  obtain ⟨t, G, hG, -, hGF⟩ := Lps.C136_linear hF hF' 1 (-1)
  have e1 : (fun k => (1 : ℝ) • at3 (r.vecs .u) k + (-1 : ℝ) • at3 (r'.vecs .u) k) = at3 fun i => r.vecs .u i - r'.vecs .u i := by
    funext k j
    show 1 * r.vecs .u _ + -1 * r'.vecs .u _ = r.vecs .u _ - r'.vecs .u _
    ring
  rw [e1] at hG
  refine ⟨G, ⟨t, hG⟩, ?_⟩
  unfold Energy.power
  rw [← Finset.sum_neg_distrib, Finset.mul_sum, Finset.mul_sum]
  refine Finset.sum_le_sum fun l hl => ?_
  have hl := Finset.mem_range.mp hl
  have hl' : l < E.C.owned.length := by omega
  have hlid : BC.lid E.C.owned E.C.owned[l] = some l := by
    unfold BC.lid
    rw [if_pos (List.getElem_mem hl'), hown.idxOf_getElem]
  unfold dotProduct
  rw [Finset.mul_sum, ← Finset.sum_neg_distrib, Finset.mul_sum, Finset.mul_sum]
  refine Finset.sum_le_sum fun k _ => ?_
  show 21 * -(C.v l * (G l k * (at3 (r.vecs .u) l k - at3 (r'.vecs .u) l k))) ≤ _
  by_cases hc : BC.Constrained E.dofs E.C.sets E.cs.boundary E.C.owned[l] .displacement k
  · have q : at3 (r.vecs .u) l k = at3 (r'.vecs .u) l k := completed_prescribed hcs hm hT hT' hb hb' h h' ht h0 h1 h0' h1' hlid hc
    rw [q, sub_self, mul_zero, mul_zero, neg_zero, mul_zero, abs_zero, mul_zero]
  · have b1 := hbal _ l k hlid k.isLt hl hc
    have b2 := hbal' _ l k hlid k.isLt hl hc
    rw [← completed_forces hcs h h' ht hlid k.isLt] at b2
    rw [hvol l hl] at b1 b2
    have hg : G l k = F l k - F' l k := by
      rw [hGF]
      show 1 * F l k + -1 * F' l k = _
      ring
    rw [hg]
    generalize r.vecs .externalForce (l * 3 + k) = ex at *
    generalize at3 (r.vecs .u) l k - at3 (r'.vecs .u) l k = dl at *
    have e2 : 21 * -(C.v l * ((F l k - F' l k) * dl)) = (21 * -((F l k + ex) * C.v l) + 21 * ((F' l k + ex) * C.v l)) * dl := by ring
    rw [e2]
    refine (le_abs_self _).trans ?_
    rw [abs_mul]
    refine mul_le_mul_of_nonneg_right ?_ (abs_nonneg _)
    refine (abs_add_le _ _).trans ?_
    rw [abs_mul, abs_mul, abs_neg, abs_of_pos (by norm_num : (0 : ℝ) < 21)]
    linarith

/-- **C260** With exact solves the displacements of the two analyses differ by a motion that keeps the lengths of all bonds to first order. -/
theorem C260_unique (P P' : QuasiStatic.Params) (E : QuasiStatic.Env) (T : QuasiStatic.Solver σ ω) (T' : QuasiStatic.Solver σ' ω')
    (ds : List BC.Definition) (hcs : BC.makeConditions ds = .ok E.cs) (hm : E.dofs = BC.dispOnly) (hown : E.C.owned.Nodup) (C : Config) (K mu : ℝ)
    (ha : Lps.Sound C K mu) (S : Lps.Stored) (nbs : List (List Nat)) (hlen : E.C.owned.length = nbs.length)
    (hvol : ∀ l < nbs.length, E.volume l = C.v l) (hS : Lps.SetUp C nbs S) (hN : Within nbs nbs.length) (ghost : (Nat → ℝ) → Nat → ℝ)
    (hT : Evaluates E.C C K mu S nbs ghost T) (hT' : Evaluates E.C C K mu S nbs ghost T')
    (t0 t0' : ℝ) (vecs vecs' : BC.Vecs) (hb : Begins E ds t0 vecs) (hb' : Begins E ds t0' vecs') (r : QuasiStatic.Record ω)
    (r' : QuasiStatic.Record ω') (h : Completed P E T t0 vecs r) (h' : Completed P' E T' t0' vecs' r') (ht : r.time = r'.time)
    (h0 : r.attempt.tol = 0) (h0' : r'.attempt.tol = 0) :
    Lps.LengthsKept C nbs fun l => at3 (r.vecs .u) l - at3 (r'.vecs .u) l := by
  obtain ⟨G, ⟨th, hG⟩, hle⟩ := C260_close P P' E T T' ds hcs hm hown C K mu S nbs hlen hvol ghost hT hT' t0 t0' vecs vecs' hb hb' r r' h h' ht
    h0.ge (by rw [h0]; norm_num) h0'.ge (by rw [h0']; norm_num)
  rw [h0, h0', add_zero, mul_zero, zero_mul] at hle
  have e1 : (at3 fun i => r.vecs .u i - r'.vecs .u i) = fun l => at3 (r.vecs .u) l - at3 (r'.vecs .u) l := rfl
  rw [e1] at hG
  obtain ⟨hneg, hiff⟩ := Lps.C136_resists ha hS hG hN
  exact hiff.1 (le_antisymm hneg (by linarith))

/-- **C260** With exact solves the two analyses agree in every displacement that the boundary conditions and the lengths of the bonds determine, in
particular everywhere if the boundary conditions hold the body. -/
theorem C260_determined (P P' : QuasiStatic.Params) (E : QuasiStatic.Env) (T : QuasiStatic.Solver σ ω) (T' : QuasiStatic.Solver σ' ω')
    (ds : List BC.Definition) (hcs : BC.makeConditions ds = .ok E.cs) (hm : E.dofs = BC.dispOnly) (hown : E.C.owned.Nodup) (C : Config) (K mu : ℝ)
    (ha : Lps.Sound C K mu) (S : Lps.Stored) (nbs : List (List Nat)) (hlen : E.C.owned.length = nbs.length)
    (hvol : ∀ l < nbs.length, E.volume l = C.v l) (hS : Lps.SetUp C nbs S) (hN : Within nbs nbs.length) (ghost : (Nat → ℝ) → Nat → ℝ)
    (hT : Evaluates E.C C K mu S nbs ghost T) (hT' : Evaluates E.C C K mu S nbs ghost T')
    (t0 t0' : ℝ) (vecs vecs' : BC.Vecs) (hb : Begins E ds t0 vecs) (hb' : Begins E ds t0' vecs') (r : QuasiStatic.Record ω)
    (r' : QuasiStatic.Record ω') (h : Completed P E T t0 vecs r) (h' : Completed P' E T' t0' vecs' r') (ht : r.time = r'.time)
    (h0 : r.attempt.tol = 0) (h0' : r'.attempt.tol = 0) (p : Nat) (hp : p < nbs.length) (j : Fin 3)
    (hdet : ∀ w, Lps.LengthsKept C nbs w → (∀ g l, ∀ k : Fin 3, BC.lid E.C.owned g = some l →
      BC.Constrained E.dofs E.C.sets E.cs.boundary g .displacement k → w l k = 0) → w p j = 0) :
    r.vecs .u (p * 3 + j) = r'.vecs .u (p * 3 + j) := by
  have hk := C260_unique P P' E T T' ds hcs hm hown C K mu ha S nbs hlen hvol hS hN ghost hT hT' t0 t0' vecs vecs' hb hb' r r' h h' ht h0 h0'
  refine sub_eq_zero.1 (hdet _ hk fun g l k hl hc => ?_)
  exact sub_eq_zero.2 (completed_prescribed hcs hm hT hT' hb hb' h h' ht h0.ge (by rw [h0]; norm_num) h0'.ge (by rw [h0']; norm_num) hl hc)

/-! ## A bar whose first point is moved -/

/-- The displacement `t` prescribed in the x direction. -/
def pullBar : BC.Definition where
  type := .prescribedDisplacement
  nodeSet := "A"
  coord := 0
  value := fun _ _ _ t => some t

/-- The two points of the bar, the first moved in the x direction and all else free. -/
def heldBar : QuasiStatic.Env where
  C := { owned := [0, 1], sets := fun s => if s = "A" then some [0] else none, x := fun i => if i = 3 then 1 else 0 }
  cs := { boundary := [BC.obj pullBar .deltaU (.increment 1 0 false), BC.obj pullBar .v (.increment 0 1 false)] }
  dofs := BC.dispOnly
  volume := fun _ => 1

/-- Its forces are those of the linear LPS material, and the other point follows. -/
def heldSolver (S : Lps.Stored) : QuasiStatic.Solver Unit Unit :=
  { QuasiStatic.demoSolver (fun _ => False) with
    force := fun _ _ _ w => barEval S () 0 fun _ i => w .y i - heldBar.C.x i
    direction := fun _ _ _ _ _ q => .ok ((), some fun i => if i = 3 then q 3 / 18 else 0) }

/-- Solves must be exact, in one iteration. -/
def exactParams : QuasiStatic.Params := { QuasiStatic.demoParams none with tolerance := 0, disableHeuristics := true, maxSolverIterations := 1 }

theorem held_conditions : BC.makeConditions [pullBar] = .ok heldBar.cs := by
  show BC.addDefinition {} pullBar = _
  unfold BC.addDefinition
  simp [pullBar, BC.construct, heldBar, BC.obj, BC.dim, Outcome.ok_bind]

theorem held_evaluates (S : Lps.Stored) : Evaluates heldBar.C (Lps.bar 0 0) 1 1 S Lps.barNbs (fun t => t) (heldSolver S) := by
  intro N wk dt w wk' f h
  have h' : barEval S () 0 (fun _ i => w .y i - heldBar.C.x i) = .ok (wk', f) := h
  obtain ⟨th, F, hF, hl⟩ := barEval_lps S () 0 _ _ f h'
  exact ⟨F, ⟨th, hF⟩, hl⟩

theorem held_begins : Begins heldBar [pullBar] 0 fun _ _ => 0 := by
  intro d hd _ g l k _ _
  rw [List.mem_singleton.1 hd]
  simp [pullBar]

theorem held_zeroed (q : Nat → ℝ) : QuasiStatic.zeroed heldBar q = .ok fun i => ([0, q 1, q 2, q 3, q 4, q 5] : List ℝ).getD i 0 := rfl

theorem held_balance {S : Lps.Stored} (hS : Lps.SetUp (Lps.bar 0 0) Lps.barNbs S) (dt : ℝ) (w : BC.Vecs) (hext : w .externalForce = fun _ => 0) :
    ∃ f, QuasiStatic.balance heldBar (heldSolver S) () () dt w =
      .ok { work := (), force := f, residual := fun i => if i = 3 then -(18 * (w .y 3 - 1 - w .y 0)) else 0 } := by
  obtain ⟨wk, f, hf⟩ := barEval_defined hS () 0 fun _ i => w .y i - heldBar.C.x i
  obtain ⟨th, F, hF, hl⟩ := barEval_lps S () 0 _ _ f hf
  obtain ⟨b0, b1⟩ := bar_displaced hS hF
  have f0 := hl 0 (by decide)
  have f1 := hl 1 (by decide)
  rw [b0] at f0
  rw [b1] at f1
  have c1 : f 1 = 0 := congrFun f0 1
  have c2 : f 2 = 0 := congrFun f0 2
  have c3 : f 3 = -(18 * (w .y 3 - (if (3 : Nat) = 3 then 1 else 0) - (w .y 0 - (if (0 : Nat) = 3 then 1 else 0)))) := congrFun f1 0
  have c4 : f 4 = 0 := congrFun f1 1
  have c5 : f 5 = 0 := congrFun f1 2
  have hz : QuasiStatic.zeroed heldBar (fun i => (f i + w .externalForce i) * heldBar.volume (i / 3)) =
      .ok fun i => if i = 3 then -(18 * (w .y 3 - 1 - w .y 0)) else 0 := by
    rw [held_zeroed]
    congr 1
    funext i
    rw [hext]
    match i with
    | 0 => rfl
    | 1 => show (f 1 + 0) * _ = 0; rw [c1]; ring
    | 2 => show (f 2 + 0) * _ = 0; rw [c2]; ring
    | 3 =>
      show (f 3 + 0) * (1 : ℝ) = -(18 * (w .y 3 - 1 - w .y 0))
      rw [c3, if_pos rfl, if_neg (by decide)]
      ring
    | 4 => show (f 4 + 0) * _ = 0; rw [c4]; ring
    | 5 => show (f 5 + 0) * _ = 0; rw [c5]; ring
    | _ + 6 => rfl
  refine ⟨f, ?_⟩
  unfold QuasiStatic.balance
  have : (heldSolver S).force () () dt w = .ok (wk, f) := hf
  rw [this]
  simp only [Outcome.ok_bind]
  rw [hz]
  rfl

theorem held_attempt {S : Lps.Stored} (hS : Lps.SetUp (Lps.bar 0 0) Lps.barNbs S) (w : BC.Vecs) (step : Nat) (pr : Nat → ℝ) (tp tc : ℝ)
    (hne : tp ≠ tc) :
    ∃ a, QuasiStatic.attempt exactParams heldBar (heldSolver S) () () pr w step tp tc = .ok a ∧ QuasiStatic.accepts a = true ∧ a.tol = 0 := by
  have hd : tc - tp ≠ 0 := sub_ne_zero.mpr (Ne.symm hne)
  have hreg : Explicit.Regular heldBar.C heldBar.cs.boundary := by
    intro c hc
    simp only [heldBar, List.mem_cons, List.not_mem_nil, or_false] at hc
    rcases hc with rfl | rfl <;> exact ⟨⟨[0], rfl⟩, fun _ _ _ _ => rfl, fun p q h => by simp [BC.obj] at h⟩
  obtain ⟨w1, h1⟩ := Explicit.applyAll_defined hreg tc tp (Explicit.setVec w .deltaU fun _ => 0)
  have h2 : BC.applyForces heldBar.C heldBar.cs.force tc tp w1 = .ok (BC.clearForce w1) := rfl
  let at' : BC.Vecs → BC.Vecs := fun w2 =>
    Explicit.setVec (Explicit.setVec w2 .y fun i => heldBar.C.x i + w2 .u i + w2 .deltaU i) .v fun i => w2 .deltaU i / (tc - tp)
  have hplace : ∀ w2, QuasiStatic.place heldBar (tc - tp) w2 = .ok (at' w2) := fun w2 => by unfold QuasiStatic.place; rw [if_neg hd]
  have hkeep : ∀ w2, at' w2 .externalForce = w2 .externalForce := fun w2 => by
    show Explicit.setVec _ _ _ _ = _
    rw [Explicit.setVec_ne _ _ (by decide), Explicit.setVec_ne _ _ (by decide)]
  have hy : ∀ w2 i, at' w2 .y i = heldBar.C.x i + w2 .u i + w2 .deltaU i := fun w2 i => by
    show Explicit.setVec _ _ _ _ _ = _
    rw [Explicit.setVec_ne _ _ (by decide)]
    rfl
  let w3 := at' (BC.clearForce w1)
  have hext : w3 .externalForce = fun _ => 0 := (hkeep _).trans rfl
  obtain ⟨f, hbal⟩ := held_balance hS (tc - tp) w3 hext
  let q := -(18 * (w3 .y 3 - 1 - w3 .y 0))
  let w4 := at' (Explicit.setVec w3 .deltaU fun i => w3 .deltaU i + 1 * (if i = 3 then q / 18 else 0))
  have hext4 : w4 .externalForce = fun _ => 0 := by
    refine (hkeep _).trans ?_
    rw [Explicit.setVec_ne _ _ (by decide), hext]
  obtain ⟨f4, hbal4⟩ := held_balance hS (tc - tp) w4 hext4
  have hu : ∀ i, w4 .y i = w3 .y i + if i = 3 then q / 18 else 0 := by
    intro i
    show at' _ .y i = at' _ .y i + _
    rw [hy, hy]
    have e1 : w3 .u = (BC.clearForce w1) .u := by
      show Explicit.setVec _ _ _ _ = _
      rw [Explicit.setVec_ne _ _ (by decide), Explicit.setVec_ne _ _ (by decide)]
    have e2 : w3 .deltaU = (BC.clearForce w1) .deltaU := by
      show Explicit.setVec _ _ _ _ = _
      rw [Explicit.setVec_ne _ _ (by decide), Explicit.setVec_ne _ _ (by decide)]
    rw [Explicit.setVec_ne _ _ (by decide), e1, e2]
    show _ + _ + (_ + 1 * _) = _
    ring
  have hzero : (fun i => if i = 3 then -(18 * (w4 .y 3 - 1 - w4 .y 0)) else 0 : Nat → ℝ) = fun _ => 0 := by
    funext i
    rw [hu, hu, if_pos rfl, if_neg (by decide : ¬ (0 : Nat) = 3)]
    split
    · show -(18 * (w3 .y 3 + -(18 * (w3 .y 3 - 1 - w3 .y 0)) / 18 - 1 - (w3 .y 0 + 0))) = 0
      ring
    · rfl
  rw [hzero] at hbal4
  have hn : QuasiStatic.residualNorm heldBar (fun _ => 0) = 0 := by
    unfold QuasiStatic.residualNorm QuasiStatic.norm2
    rw [QuasiStatic.normInf_zero]
    simp
  let q0 : Nat → ℝ := fun i => if i = 3 then q else 0
  have hz4 : QuasiStatic.zeroed heldBar (fun i => if i = 3 then q0 3 / 18 else 0) = .ok fun i => if i = 3 then q / 18 else 0 := by
    rw [held_zeroed]
    congr 1
    funext i
    match i with
    | 0 => rfl
    | 1 => rfl
    | 2 => rfl
    | 3 => rfl
    | 4 => rfl
    | 5 => rfl
    | _ + 6 => rfl
  have hatt : QuasiStatic.attempt exactParams heldBar (heldSolver S) () () pr w step tp tc = (do
      let t ← QuasiStatic.newton exactParams heldBar (heldSolver S) () pr (tc - tp) step (0 * 1) 1 1
        { vecs := w3, bal := ⟨(), f, q0⟩, norm := QuasiStatic.residualNorm heldBar q0 }
      .ok { iter := t, tol := 0 * 1 }) := by
    unfold QuasiStatic.attempt
    have h1' : BC.applyBoundary heldBar.C heldBar.cs.boundary tc tp (Explicit.setVec w .deltaU fun _ => 0) = .ok w1 := h1
    rw [h1']; simp only [Outcome.ok_bind]
    rw [h2]; simp only [Outcome.ok_bind]
    rw [hplace]; simp only [Outcome.ok_bind]
    rw [hbal]
    rfl
  by_cases hpos : (0 : ℝ) * 1 < QuasiStatic.residualNorm heldBar q0
  · refine ⟨⟨⟨w4, ⟨(), f4, fun _ => 0⟩, QuasiStatic.residualNorm heldBar fun _ => 0⟩, 0 * 1⟩, ?_, ?_, zero_mul 1⟩
    · rw [hatt]
      unfold QuasiStatic.newton
      rw [if_pos hpos]
      have hi : QuasiStatic.increment exactParams heldBar (heldSolver S) () pr (tc - tp) step 1
          { vecs := w3, bal := ⟨(), f, q0⟩, norm := QuasiStatic.residualNorm heldBar q0 } =
          .ok ((), some fun i => if i = 3 then q0 3 / 18 else 0) := by
        unfold QuasiStatic.increment
        rw [if_neg (by simp [exactParams])]
        rfl
      have hap : QuasiStatic.applyIncrement exactParams heldBar (heldSolver S) () (tc - tp)
          { vecs := w3, bal := ⟨(), f, q0⟩, norm := QuasiStatic.residualNorm heldBar q0 } () (fun i => if i = 3 then q0 3 / 18 else 0) =
          .ok ⟨w4, ⟨(), f4, fun _ => 0⟩, QuasiStatic.residualNorm heldBar fun _ => 0⟩ := by
        unfold QuasiStatic.applyIncrement
        rw [hz4]
        simp only [Outcome.ok_bind]
        have hs : ∀ t l, QuasiStatic.stepLength exactParams (heldSolver S) () () (tc - tp) t l = .ok ((), 1) := fun t l => rfl
        rw [hs]
        simp only [Outcome.ok_bind]
        rw [hplace]
        simp only [Outcome.ok_bind]
        have hb4 : QuasiStatic.balance heldBar (heldSolver S) () () (tc - tp)
          (at' (Explicit.setVec w3 .deltaU fun i => w3 .deltaU i + 1 * (if i = 3 then q / 18 else 0))) = .ok ⟨(), f4, fun _ => 0⟩ := hbal4
        rw [hb4]
        rfl
      rw [hi]
      simp only [Outcome.ok_bind]
      rw [hap]
      rfl
    · unfold QuasiStatic.accepts
      simp only [hn]
      simp
  · refine ⟨⟨⟨w3, ⟨(), f, q0⟩, QuasiStatic.residualNorm heldBar q0⟩, 0 * 1⟩, ?_, ?_, zero_mul 1⟩
    · rw [hatt]
      unfold QuasiStatic.newton
      rw [if_neg hpos]
      rfl
    · unfold QuasiStatic.accepts
      simp [show ¬ (0 : ℝ) < QuasiStatic.residualNorm heldBar q0 by simpa using hpos]

/-- One load step from time zero to the time `t`. -/
theorem held_completed {S : Lps.Stored} (hS : Lps.SetUp (Lps.bar 0 0) Lps.barNbs S) (t : ℝ) (ht : 0 < t) :
    ∃ r, Completed exactParams heldBar (heldSolver S) 0 (fun _ _ => 0) r ∧ r.time = t ∧ r.attempt.tol = 0 := by
  let s0 : QuasiStatic.State Unit Unit :=
    { times := [0, t], step := 1, timeCurrent := 0, timePrevious := 0, failed := false, failedInStep := false, inStep := 0, total := 0,
      vecs := BC.clearForce (Explicit.setVec (fun _ _ => 0) .v fun _ => 0), predictor := QuasiStatic.firstPredictor exactParams fun _ _ => 0,
      N := (), work := (), log := [] }
  have hb : BC.applyBoundary heldBar.C heldBar.cs.boundary 0 0 (Explicit.setVec (fun _ _ => 0) .v fun _ => 0) =
      .ok (Explicit.setVec (fun _ _ => 0) .v fun _ => 0) := by
    unfold BC.applyBoundary
    have : ∀ c ∈ heldBar.cs.boundary, ∀ s, BC.apply heldBar.C 0 0 s c = .ok s := by
      intro c hc s
      simp only [heldBar, List.mem_cons, List.not_mem_nil, or_false] at hc
      rcases hc with rfl | rfl <;> (unfold BC.apply BC.skips; simp [BC.obj])
    show List.foldlM _ _ [_, _] = _
    rw [List.foldlM_cons, this _ (by simp [heldBar])]
    simp only [Outcome.ok_bind]
    rw [List.foldlM_cons, this _ (by simp [heldBar])]
    rfl
  have hst : QuasiStatic.start exactParams heldBar [0, t] (fun _ _ => 0) () () = .ok (t, s0) := by
    unfold QuasiStatic.start
    simp only
    rw [if_neg (by simp [QuasiStatic.badLimits, QuasiStatic.demoParams, exactParams]), hb]
    rfl
  obtain ⟨a, ha, hacc, htol⟩ := held_attempt hS s0.vecs 1 s0.predictor 0 t ht.ne
  have hp : QuasiStatic.pass exactParams heldBar (heldSolver S) t s0 = .ok (.again (QuasiStatic.commit (heldSolver S) s0 [0, t] 0 t a)) := by
    unfold QuasiStatic.pass
    show (do
      let a ← QuasiStatic.attempt exactParams heldBar (heldSolver S) () () s0.predictor s0.vecs 1 0 t
      _ : Outcome (QuasiStatic.Next Unit Unit)) = _
    rw [ha]
    simp only [Outcome.ok_bind]
    rw [if_pos hacc]
    rfl
  have hrun : QuasiStatic.run exactParams heldBar (heldSolver S) t 1 s0 = .ok (.again (QuasiStatic.commit (heldSolver S) s0 [0, t] 0 t a)) := by
    rw [QuasiStatic.run, hp]
    rfl
  exact ⟨_, ⟨[t], (), (), t, s0, 1, _, hst, hrun, List.mem_cons_self ..⟩, rfl, htol⟩

/-- The first point determines the displacement of the second in the direction of the bar. -/
theorem held_determined (w : Nat → V3) (hk : Lps.LengthsKept (Lps.bar 0 0) Lps.barNbs w)
    (hc : ∀ g l, ∀ k : Fin 3, BC.lid heldBar.C.owned g = some l → BC.Constrained heldBar.dofs heldBar.C.sets heldBar.cs.boundary g .displacement k →
      w l k = 0) : w 1 0 = 0 := by
  have h0 : w 0 0 = 0 := hc 0 0 0 rfl ⟨rfl, BC.obj pullBar .deltaU (.increment 1 0 false), List.mem_cons_self .., rfl, rfl, [0], rfl, by simp⟩
  have h1 := hk 0 [1] 0 1 rfl rfl (by simp [Lps.bar]) (by simp [Lps.bar])
  simp only [Lps.bar, dotProduct, Fin.sum_univ_three] at h1
  simp at h1
  rw [h0, sub_zero] at h1
  exact h1

/-- The bar meets the hypotheses of C260; its second point follows the first. -/
example : ∃ S r, BC.makeConditions [pullBar] = .ok heldBar.cs ∧ heldBar.dofs = BC.dispOnly ∧ heldBar.C.owned.Nodup ∧
    Lps.Sound (Lps.bar 0 0) 1 1 ∧ heldBar.C.owned.length = Lps.barNbs.length ∧
    (∀ l < Lps.barNbs.length, heldBar.volume l = (Lps.bar 0 0).v l) ∧ Lps.SetUp (Lps.bar 0 0) Lps.barNbs S ∧
    Within Lps.barNbs Lps.barNbs.length ∧ Evaluates heldBar.C (Lps.bar 0 0) 1 1 S Lps.barNbs (fun t => t) (heldSolver S) ∧
    Begins heldBar [pullBar] 0 (fun _ _ => 0) ∧ Completed exactParams heldBar (heldSolver S) 0 (fun _ _ => 0) r ∧ r.attempt.tol = 0 ∧
    r.time = 1 ∧ r.vecs .u 0 = 1 ∧ r.vecs .u 3 = 1 := by
  obtain ⟨S, hS⟩ := Lps.setUp_exists (Lps.bar 0 0) Lps.barNbs
  obtain ⟨r, h, ht, htol⟩ := held_completed hS 1 one_pos
  refine ⟨S, r, held_conditions, rfl, by decide, bar_sound, rfl, fun _ _ => rfl, hS, Lps.bar_within, held_evaluates S, held_begins, h, htol, ht, ?_⟩
  obtain ⟨F, ⟨th, hF⟩, hbal, -, hv⟩ := completed_parts held_conditions rfl (held_evaluates S) h held_begins htol.ge (by rw [htol]; norm_num)
  have := hv 0 0 0 [] pullBar [] rfl rfl rfl ⟨rfl, [0], rfl, by simp⟩ (by simp)
  rw [ht] at this
  have e : (1 : ℝ) = r.vecs .u 0 := Option.some.inj this
  refine ⟨e.symm, ?_⟩
  have hx : r.vecs .externalForce 3 = 0 := by
    obtain ⟨rest, N, work, tf, s0, n, x, hst, hrun, hr⟩ := h
    exact (QuasiStatic.C42_body_force _ _ _ [pullBar] held_conditions _ _ N work tf s0 hst n x hrun r hr 1 1 0 rfl (by decide)).1
      (by intro d hd hty; rw [List.mem_singleton.1 hd] at hty; cases hty)
  have hb := hbal 1 1 0 rfl (by decide) (by decide) (by
    rintro ⟨-, c, hc, -, -, nodes, hs, hg⟩
    simp only [heldBar, List.mem_cons, List.not_mem_nil, or_false] at hc
    rcases hc with rfl | rfl <;> (simp [heldBar, BC.obj, pullBar] at hs; subst hs; simp at hg))
  rw [htol, mul_zero] at hb
  have hb' : 21 * |(F 1 0 + r.vecs .externalForce 3) * 1| ≤ 0 := hb
  rw [hx, add_zero, mul_one] at hb'
  have hF1 : F 1 0 = 0 := abs_nonpos_iff.1 (by linarith)
  rw [(bar_displaced hS hF).2] at hF1
  have hF2 : -(18 * (r.vecs .u 3 - r.vecs .u 0)) = 0 := hF1
  linarith

end Verif.Conserve
