import Verif.Thermal.Props
import Mathlib.Tactic.LinearCombination

/-!
# Implicit diffusion: which entry goes where, and convergence (C111, C112)
-/

namespace Verif.Thermal

open Verif Verif.BC Verif.Explicit Verif.QuasiStatic Verif.Dof Verif.Neigh Verif.Mech Verif.Energy
open Verif.Diffusion (Medium Conducting Anchored Steady fluxDivergence)

variable {σ ω : Type}

/-! ## C111 -/

/-- **C111** when temperatures are the only unknowns: the temperature of a node that is not held
changes by the entry of the solution in the node's row, that of a held node not at all. -/
theorem C111_partial (E : Env) (S : Solver σ ω) (ds : List Definition)
    (hcs : makeConditions ds = .ok E.cs) (hm : E.dofs = tempOnly) (N : σ) (dt : ℝ)
    (t t' : Iter ω) (work : ω) (lhs : Nat → ℝ)
    (h : applyIncrement E S N dt t work lhs = .ok t') (g l : Nat) (hl : lid E.C.owned g = some l) :
    (¬ Held E g → t'.vecs .temperature l =
      t.vecs .temperature l + lhs (Dof.row E.dofs l .temperature 0)) ∧
    (Held E g → t'.vecs .temperature l = t.vecs .temperature l) := by
  obtain ⟨z, hz, hw, _, _⟩ := applyIncrement_ok h
  obtain ⟨_, h2, _⟩ := heat_ok hw
  have hlt : l < E.C.owned.length := by
    obtain ⟨q1, q2⟩ := lid_some.mp hl
    rw [q2]
    exact List.idxOf_lt_length_of_mem q1
  have hrow : Dof.row E.dofs l .temperature 0 = l := by
    rw [hm]
    show 1 * l + 0 + 0 = l
    omega
  obtain ⟨e1, e2⟩ := zeroed_exact hcs hm hz hl
  rw [h2 l hlt, hrow]
  exact ⟨fun hf => by rw [e2 hf], fun hf => by rw [e1 hf, add_zero]⟩

/-- Displacements and temperatures as unknowns, which is what "Solve For Temperature" alone gives. -/
def bothUnknown : Manager := setup fresh { temperature := some true }

/-- One node, no conditions. -/
noncomputable def oneNode : Env where
  C := { owned := [0], sets := fun _ => none, x := fun _ => 0 }
  cs := {}
  dofs := bothUnknown
  volume := fun _ => 1

/-- A solver whose solution moves the node by 5 and leaves its temperature alone. -/
noncomputable def movingSolver : Solver Unit Unit where
  evaluate _ _ _ _ := .ok ((), fun _ _ => 0)
  direction _ _ _ _ _ := .ok ((), some fun i => if i = 0 then 5 else 0)
  shift _ _ := ((), ())

/-- **C111** is false of the code when displacements are unknowns as well: displacement increments
are added to temperatures.  Here the solution of the linear system asks for a displacement of 5 and
no change of temperature; the temperature changes by 5 and the node does not move. -/
theorem C111_broken :
    Dof.row oneNode.dofs 0 .temperature 0 = 3 ∧
    ∃ (lhs : Nat → ℝ) (t t' : Iter Unit), lhs (Dof.row oneNode.dofs 0 .temperature 0) = 0 ∧
      lhs (Dof.row oneNode.dofs 0 .displacement 0) = 5 ∧
      applyIncrement oneNode movingSolver () 1 t () lhs = .ok t' ∧
      t.vecs .temperature 0 = 0 ∧ t'.vecs .temperature 0 = 5 ∧ t'.vecs .y = t.vecs .y := by
  refine ⟨rfl, fun i => if i = 0 then 5 else 0, ⟨fun _ _ => 0, ⟨(), fun _ => 0, fun _ => 0⟩, 0⟩,
    _, rfl, rfl, rfl, rfl, ?_, ?_⟩
  · have : ((List.range (size oneNode)).map fun i => if i = 0 then (5 : ℝ) else 0).getD 0 0 = 5 := rfl
    show (0 : ℝ) + 1 * ((List.range (size oneNode)).map fun i => if i = 0 then (5 : ℝ) else 0).getD 0 0 = 5
    rw [this]; norm_num
  · rfl

/-- One node whose temperature is prescribed. -/
noncomputable def oneHeld : Env where
  C := { owned := [0], sets := fun s => if s = "all" then some [0] else none, x := fun _ => 0 }
  cs := { boundary := boundaryOf ⟨.prescribedTemperature, "all", 0, fun _ _ _ _ => some 1⟩ }
  dofs := bothUnknown
  volume := fun _ => 1

/-- **C111**, reactions: when displacements are unknowns as well, a relative tolerance makes the code
look for the reaction of a prescribed temperature beyond the end of the flux divergence. -/
theorem C111_reactions (P : Params) (h : P.useAbsoluteTolerance = false) (flux : Nat → ℝ) :
    toleranceMultiplier P oneHeld flux = .ub := by
  unfold toleranceMultiplier
  rw [h]
  rfl

/-! ## C112 -/

theorem lid_range {n p : Nat} (h : p < n) : lid (List.range n) p = some p := by
  rw [lid_some]
  refine ⟨List.mem_range.mpr h, ?_⟩
  have := (List.nodup_range (n := n)).idxOf_getElem p (by rw [List.length_range]; exact h)
  rw [List.getElem_range] at this
  exact this.symm

theorem flux_add {M : Medium} {nbs : List (List Nat)} {n : Nat} (hw : Within nbs n)
    {T L T' D J D' : Nat → ℝ} (h1 : fluxDivergence M T nbs.length (encode nbs) = .ok D)
    (h2 : fluxDivergence M L nbs.length (encode nbs) = .ok J)
    (h3 : fluxDivergence M T' nbs.length (encode nbs) = .ok D')
    (hT : ∀ p < n, T' p = T p + L p) (p : Nat) : D' p = D p + J p := by
  rw [(Diffusion.flux_eq h1).2, (Diffusion.flux_eq h2).2, (Diffusion.flux_eq h3).2]
  have : (bondsAt nbs p).map (Diffusion.fluxOf M T') =
      (bondsAt nbs p).map fun b => Diffusion.fluxOf M T b + Diffusion.fluxOf M L b := by
    refine List.map_congr_left fun b hb => ?_
    obtain ⟨q1, q2⟩ := bonds_within hw b (List.mem_filter.mp hb).1
    rw [Diffusion.fluxOf_eq, Diffusion.fluxOf_eq, Diffusion.fluxOf_eq, hT _ q1, hT _ q2]
    ring
  rw [this, List.sum_map_add]

theorem multiplier_nonneg {P : Params} {E : Env} {flux : Nat → ℝ} {m : ℝ}
    (h : toleranceMultiplier P E flux = .ok m) : 0 ≤ m := by
  unfold toleranceMultiplier at h
  split at h
  · rw [← ok_inj h]; norm_num
  · obtain ⟨l, _, h⟩ := Outcome.bind_eq_ok.mp h
    rw [← ok_inj h]
    exact Real.sqrt_nonneg _

/-- The residual of a diffusion problem at a mesh node. -/
theorem balance_conducts {E : Env} {S : Solver σ ω} {M : Medium} {nbs : List (List Nat)}
    {ds : List Definition} (hcs : makeConditions ds = .ok E.cs) (hm : E.dofs = tempOnly)
    (hown : E.C.owned = List.range nbs.length) (hS : Conducts S M nbs) {N : σ} {wk : ω} {dt : ℝ}
    {w : Vecs} {b : Balance ω} (h : balance E S N wk dt w = .ok b) :
    ∃ D, fluxDivergence M (w .temperature) nbs.length (encode nbs) = .ok D ∧
      ∀ p < nbs.length, (Held E p → b.residual p = 0) ∧
        (¬ Held E p → b.residual p = D p * E.volume p) := by
  unfold balance at h
  obtain ⟨p, hp, h⟩ := Outcome.bind_eq_ok.mp h
  obtain ⟨z, hz, h⟩ := Outcome.bind_eq_ok.mp h
  have e := ok_inj h
  subst e
  refine ⟨p.2 .temperature, hS _ _ _ _ _ _ hp, fun q hq => ?_⟩
  have ht : E.dofs.total = 1 := by rw [hm]; rfl
  have := zeroed_exact hcs hm hz (g := q) (l := q) (by rw [hown]; exact lid_range hq)
  rw [ht, Nat.div_one, hm, density_tempOnly] at this
  exact this

/-- **C112**, one load step: with an exact linear solver, the iteration on a diffusion problem never
needs more than one increment.  Either the temperatures left by the conditions are good enough, or
the first increment makes the field steady. -/
theorem C112_attempt (P : Params) (E : Env) (S : Solver σ ω) (M : Medium) (nbs : List (List Nat))
    (ds : List Definition) (hcs : makeConditions ds = .ok E.cs) (hm : E.dofs = tempOnly)
    (hown : E.C.owned = List.range nbs.length) (hvol : ∀ p < nbs.length, E.volume p ≠ 0)
    (hw : Within nbs nbs.length) (hc : Conducting M nbs) (hS : Conducts S M nbs)
    (hx : Exact E S M nbs) (htol : 0 ≤ P.tolerance) (hit : 1 ≤ P.maxSolverIterations)
    (N : σ) (work : ω) (vecs : Vecs) (tp tc : ℝ) (a : Attempt ω)
    (h : attempt P E S N work vecs tp tc = .ok a) :
    a.iter.norm ≤ a.tol ∧
      (a.iter.norm = residualNorm E a.iter.bal.residual) ∧
      (Steady M nbs (Held E) (a.iter.vecs .temperature) ∨
        ∃ w1 w2 b, applyBoundary E.C E.cs.boundary tc tp vecs = .ok w1 ∧
          applyForces E.C E.cs.force tc tp w1 = .ok w2 ∧
          balance E S N work (tc - tp) w2 = .ok b ∧ a.iter.bal = b ∧ a.iter.vecs = w2) := by
  obtain ⟨w1, w2, b, m, h1, h2, hb, hmul, ht, hn, _⟩ :=
    attempt_ok (K := fun _ => False) (fun _ _ _ _ h => h.elim) h
  have htol' : 0 ≤ a.tol := by rw [ht]; exact mul_nonneg htol (multiplier_nonneg hmul)
  obtain ⟨k, hk⟩ : ∃ k, P.maxSolverIterations = k + 1 := ⟨P.maxSolverIterations - 1, by omega⟩
  rw [hk] at hn
  unfold newton at hn
  split at hn
  · obtain ⟨p, hp, hn⟩ := Outcome.bind_eq_ok.mp hn
    have hsome := hx.converges _ _ _ _ _ _ hp
    split at hn
    · rename_i hnone
      rw [hnone] at hsome
      exact absurd hsome (by simp)
    · rename_i lhs hlhs
      obtain ⟨t1, ht1, hn⟩ := Outcome.bind_eq_ok.mp hn
      obtain ⟨l, hl, hheat, hbal, hnorm⟩ := applyIncrement_ok ht1
      obtain ⟨_, hadd, _⟩ := heat_ok hheat
      have hp' : S.direction N b.work (tc - tp) w2 b.residual = .ok (p.1, some lhs) := by
        rw [hp, ← hlhs]
      obtain ⟨D, hD, hres⟩ := balance_conducts hcs hm hown hS hb
      obtain ⟨D', hD', hres'⟩ := balance_conducts hcs hm hown hS hbal
      obtain ⟨J, hJ⟩ := Diffusion.conducting_ok hc lhs
      have hT : ∀ q < nbs.length, t1.vecs .temperature q = w2 .temperature q + lhs q := by
        intro q hq
        have hlq : lid E.C.owned q = some q := by rw [hown]; exact lid_range hq
        rw [hadd q (by rw [hown, List.length_range]; exact hq)]
        obtain ⟨z1, z2⟩ := zeroed_exact hcs hm hl hlq
        by_cases hq2 : Held E q
        · rw [z1 hq2, hx.held _ _ _ _ _ _ _ hp' q hq hq2]
        · rw [z2 hq2]
      have hflux := flux_add hw hD hJ hD' hT
      have hzero : ∀ q < nbs.length, ¬ Held E q → D' q * E.volume q = 0 := by
        intro q hq hfree
        have e1 := hx.solves _ _ _ _ _ _ _ hp' J hJ q hq hfree
        rw [(hres q hq).2 hfree] at e1
        rw [hflux q]
        linear_combination -e1
      have hr0 : ∀ i < size E, t1.bal.residual i = 0 := by
        intro i hi
        rw [size_tempOnly hm, hown, List.length_range] at hi
        by_cases hq2 : Held E i
        · exact (hres' i hi).1 hq2
        · rw [(hres' i hi).2 hq2, hzero i hi hq2]
      have hn0 : t1.norm = 0 := by rw [hnorm, residualNorm_zero hr0]
      have hend : newton E S N (tc - tp) a.tol k t1 = .ok t1 := by
        cases k with
        | zero => rfl
        | succ k =>
          unfold newton
          rw [if_neg (by rw [hn0]; exact not_lt.mpr htol')]
      rw [hend] at hn
      have e := ok_inj hn
      rw [← e]
      refine ⟨by rw [hn0]; exact htol', hnorm, .inl ⟨D', hD', fun q hq hfree => ?_⟩⟩
      exact (mul_eq_zero.mp (hzero q hq hfree)).resolve_right (hvol q hq)
  · rename_i hle
    have e := ok_inj hn
    rw [← e]
    exact ⟨not_lt.mp hle, rfl, .inr ⟨w1, w2, b, h1, h2, hb, rfl, rfl⟩⟩

/-- **C112**, completion: with an exact linear solver every load step of an implicit diffusion
analysis is completed, and within the tolerance itself, not merely a hundred times the tolerance. -/
theorem C112_completes (P : Params) (E : Env) (S : Solver σ ω) (M : Medium) (nbs : List (List Nat))
    (ds : List Definition) (hcs : makeConditions ds = .ok E.cs) (hm : E.dofs = tempOnly)
    (hown : E.C.owned = List.range nbs.length) (hvol : ∀ p < nbs.length, E.volume p ≠ 0)
    (hw : Within nbs nbs.length) (hc : Conducting M nbs) (hS : Conducts S M nbs)
    (hx : Exact E S M nbs) (htol : 0 ≤ P.tolerance) (hit : 1 ≤ P.maxSolverIterations)
    (N : σ) (work : ω) (vecs : Vecs) (ts : List ℝ) (w : Vecs) (x : Result ω)
    (h : simulate P E S N work vecs ts = .ok (w, x)) :
    x.finished = true ∧ ∀ r ∈ x.log, r.attempt.iter.norm ≤ r.attempt.tol := by
  have key := C112_attempt P E S M nbs ds hcs hm hown hvol hw hc hS hx htol hit
  refine ⟨?_, fun r hr => ?_⟩
  · obtain ⟨t0, rest, rfl, _, hs⟩ := simulate_ok h
    clear h
    revert hs
    generalize t0 = tp, N = N, work = wk, w = v
    intro hs
    induction rest generalizing tp N wk v x with
    | nil => rw [← ok_inj hs]
    | cons tc rest ih =>
      unfold steps at hs
      obtain ⟨a, ha, hs⟩ := Outcome.bind_eq_ok.mp hs
      have hacc : accepts a = true := by
        unfold accepts
        simp only [Bool.or_eq_true, decide_eq_true_eq, not_lt]
        exact .inl (key _ _ _ _ _ _ ha).1
      rw [if_pos hacc] at hs
      obtain ⟨y, hy, hs⟩ := Outcome.bind_eq_ok.mp hs
      rw [← ok_inj hs]
      exact ih y _ _ _ _ hy
  · obtain ⟨N', work', vecs', ha, _⟩ := record_attempt h hr
    exact (key _ _ _ _ _ _ ha).1

/-- **C112**, steady states: with tolerance zero the temperatures written for a load step are the
steady field that belongs to the temperatures of the held nodes - every load step is the same as if
it were the first. -/
theorem C112_steady (P : Params) (E : Env) (S : Solver σ ω) (M : Medium) (nbs : List (List Nat))
    (ds : List Definition) (hcs : makeConditions ds = .ok E.cs) (hm : E.dofs = tempOnly)
    (hown : E.C.owned = List.range nbs.length) (hvol : ∀ p < nbs.length, E.volume p ≠ 0)
    (hw : Within nbs nbs.length) (hc : Conducting M nbs) (hS : Conducts S M nbs)
    (hx : Exact E S M nbs) (htol : P.tolerance = 0) (hit : 1 ≤ P.maxSolverIterations)
    (N : σ) (work : ω) (vecs : Vecs) (ts : List ℝ) (w : Vecs) (x : Result ω)
    (h : simulate P E S N work vecs ts = .ok (w, x)) (r : Record ω) (hr : r ∈ x.log) :
    Steady M nbs (Held E) (r.vecs .temperature) := by
  obtain ⟨N', work', vecs', ha, _⟩ := record_attempt h hr
  obtain ⟨h1, h2, h3 | ⟨w1, w2, b, _, _, hb, eb, ew⟩⟩ :=
    C112_attempt P E S M nbs ds hcs hm hown hvol hw hc hS hx htol.ge hit _ _ _ _ _ _ ha
  · exact h3
  · obtain ⟨D, hD, hres⟩ := balance_conducts hcs hm hown hS hb
    unfold Record.vecs
    rw [ew]
    refine ⟨D, hD, fun p hp hfree => ?_⟩
    have ht : r.attempt.tol = 0 := by
      obtain ⟨_, _, _, m, _, _, _, _, ht, _⟩ :=
        attempt_ok (K := fun _ => False) (fun _ _ _ _ h => h.elim) ha
      rw [ht, htol, zero_mul]
    have hge := residualNorm_ge E b.residual p
      (by rw [size_tempOnly hm, hown, List.length_range]; exact hp)
    rw [← eb, ← h2] at hge
    have h0 : |r.attempt.iter.bal.residual p| = 0 := by
      have := abs_nonneg (r.attempt.iter.bal.residual p)
      rw [ht] at h1
      linarith
    have := (hres p hp).2 hfree
    rw [← eb, abs_eq_zero.mp h0] at this
    exact (mul_eq_zero.mp this.symm).resolve_right (hvol p hp)

/-- **C112**, bounds: and if every node is joined by bonds to a held one, all temperatures written lie
between the lowest and the highest temperature of the held nodes. -/
theorem C112_bounds (P : Params) (E : Env) (S : Solver σ ω) (M : Medium) (nbs : List (List Nat))
    (ds : List Definition) (hcs : makeConditions ds = .ok E.cs) (hm : E.dofs = tempOnly)
    (hown : E.C.owned = List.range nbs.length) (hvol : ∀ p < nbs.length, E.volume p ≠ 0)
    (hw : Within nbs nbs.length) (hc : Conducting M nbs) (hS : Conducts S M nbs)
    (hx : Exact E S M nbs) (htol : P.tolerance = 0) (hit : 1 ≤ P.maxSolverIterations)
    (hanch : Anchored nbs (Held E)) (lo hi : ℝ)
    (N : σ) (work : ω) (vecs : Vecs) (ts : List ℝ) (w : Vecs) (x : Result ω)
    (h : simulate P E S N work vecs ts = .ok (w, x)) (r : Record ω) (hr : r ∈ x.log)
    (hB : ∀ c < nbs.length, Held E c →
      lo ≤ r.vecs .temperature c ∧ r.vecs .temperature c ≤ hi) :
    ∀ p < nbs.length, lo ≤ r.vecs .temperature p ∧ r.vecs .temperature p ≤ hi :=
  Diffusion.C105_bounds M nbs _ _ lo hi hc hw hanch
    (C112_steady P E S M nbs ds hcs hm hown hvol hw hc hS hx htol hit N work vecs ts w x h r hr) hB

/-! ### The rod -/

/-- Both ends of the rod are prescribed to have the temperature position times time. -/
def ends : Definition := ⟨.prescribedTemperature, "ends", 0, fun x _ _ t => some (x * t)⟩

/-- Before the analysis the whole rod has temperature 7. -/
def warm : Definition := ⟨.initialTemperature, "rod", 0, fun _ _ _ _ => some 7⟩

/-- The rod as a mesh of three nodes. -/
noncomputable def rodEnv : Env where
  C := { owned := [0, 1, 2]
         sets := fun s => if s = "ends" then some [0, 2] else if s = "rod" then some [0, 1, 2] else none
         x := fun i => if i % 3 = 0 then (i / 3 : Nat) else 0 }
  cs := { boundary := boundaryOf ends, initial := initialOf warm }
  dofs := tempOnly
  volume := fun _ => 1

/-- Solves for the temperature of the middle of the rod. -/
noncomputable def rodSolver : Solver Unit Unit where
  evaluate _ _ _ w := do
    let D ← fluxDivergence Diffusion.rod (w .temperature) 3 (encode Diffusion.rodNbs)
    .ok ((), fun _ => D)
  direction _ _ _ _ r := .ok ((), some fun i =>
    if i = 1 then r 1 / (2 * Diffusion.conductance Diffusion.rod ⟨1, 0, 1⟩) else 0)
  shift _ _ := ((), ())

theorem rod_held (p : Nat) (h : p < 3) : Held rodEnv p ↔ p ≠ 1 := by
  constructor
  · rintro ⟨_, c, hc, _, _, nodes, hn, hp⟩ rfl
    have : c.nodeSet = "ends" := by
      simp only [rodEnv, boundaryOf, ends, List.mem_cons, List.not_mem_nil, or_false] at hc
      rcases hc with rfl | rfl <;> rfl
    rw [this] at hn
    have e : nodes = [0, 2] := by simpa [rodEnv] using hn.symm
    rw [e] at hp
    exact absurd hp (by decide)
  · intro h1
    refine ⟨rfl, obj ends .temperature .dirichlet, by simp [rodEnv, boundaryOf, ends], rfl, rfl, [0, 2],
      rfl, ?_⟩
    have : p = 0 ∨ p = 2 := by omega
    rcases this with rfl | rfl <;> decide

theorem rod_conducts : Conducts rodSolver Diffusion.rod Diffusion.rodNbs := by
  intro N wk dt w wk' dens h
  obtain ⟨D, hD, h⟩ := Outcome.bind_eq_ok.mp h
  have e := ok_inj h
  rw [Prod.mk.injEq] at e
  rw [← e.2]
  exact hD

theorem rod_same : Diffusion.conductance Diffusion.rod ⟨1, 2, 2⟩ =
    Diffusion.conductance Diffusion.rod ⟨1, 0, 1⟩ := by
  have h1 : Diffusion.kernelDenominator Diffusion.rod ⟨1, 0, 1⟩ =
      Diffusion.kernelDenominator Diffusion.rod ⟨1, 2, 2⟩ := by
    have a : ∀ k : Nat, Diffusion.rod.x k 0 = k := fun _ => rfl
    have b : ∀ k : Nat, Diffusion.rod.x k 1 = 0 := fun _ => rfl
    have c : ∀ k : Nat, Diffusion.rod.x k 2 = 0 := fun _ => rfl
    unfold Diffusion.kernelDenominator Diffusion.spacing len
    simp only [Pi.sub_apply, a, b, c]
    norm_num
  unfold Diffusion.conductance
  rw [h1]
  rfl

theorem rod_flux {T D : Nat → ℝ}
    (h : fluxDivergence Diffusion.rod T 3 (encode Diffusion.rodNbs) = .ok D) :
    D 1 = Diffusion.conductance Diffusion.rod ⟨1, 0, 1⟩ * (T 0 + T 2 - 2 * T 1) := by
  have h' : fluxDivergence Diffusion.rod T Diffusion.rodNbs.length (encode Diffusion.rodNbs) = .ok D := h
  rw [(Diffusion.flux_eq h').2 1]
  have e : bondsAt Diffusion.rodNbs 1 = [⟨1, 0, 1⟩, ⟨1, 2, 2⟩] := by decide
  rw [e]
  simp only [List.map_cons, List.map_nil, List.sum_cons, List.sum_nil, Diffusion.fluxOf_eq, rod_same]
  ring

theorem rod_exact : Exact rodEnv rodSolver Diffusion.rod Diffusion.rodNbs where
  converges := by
    intro N wk dt w r p h
    rw [← ok_inj h]
    rfl
  held := by
    intro N wk dt w r wk' lhs h p hp hh
    have e := ok_inj h
    rw [Prod.mk.injEq, Option.some.injEq] at e
    rw [← e.2]
    exact if_neg ((rod_held p hp).mp hh)
  solves := by
    intro N wk dt w r wk' lhs h J hJ p hp hfree
    have e := ok_inj h
    rw [Prod.mk.injEq, Option.some.injEq] at e
    have hp1 : p = 1 := by
      by_contra hne
      exact hfree ((rod_held p hp).mpr hne)
    subst hp1
    have hk : 0 < Diffusion.conductance Diffusion.rod ⟨1, 0, 1⟩ :=
      Diffusion.conductance_pos Diffusion.rod_conducting ⟨[0, 2], rfl, by decide⟩
    rw [rod_flux hJ, ← e.2]
    show -(_ * (0 + 0 - 2 * (r 1 / _)) * 1) = r 1
    field_simp
    ring

/-- The analysis of the rod at the times 0, 1, 2: the initial output shows temperature 7 even at the
ends, and then the middle of the rod has the mean of the temperatures of the ends. -/
example : ∃ w x, simulate ⟨0, false, 5⟩ rodEnv rodSolver () () (fun _ _ => 0) [0, 1, 2] = .ok (w, x) ∧
    w .temperature 2 = 7 ∧ x.finished = true ∧ x.log.map Record.time = [1, 2] ∧
    ∀ r ∈ x.log, r.vecs .temperature 0 = 0 ∧ r.vecs .temperature 1 = r.time ∧
      r.vecs .temperature 2 = 2 * r.time := by
  have hcs : makeConditions [ends, warm] = .ok rodEnv.cs := rfl
  have hw : Within Diffusion.rodNbs Diffusion.rodNbs.length := by unfold Within; decide
  obtain ⟨w, x, h⟩ := C110_defined ⟨0, false, 5⟩ rodEnv rodSolver [ends, warm] hcs rfl
    (by
      intro d hd
      simp only [List.mem_cons, List.not_mem_nil, or_false] at hd
      rcases hd with rfl | rfl
      · exact ⟨[0, 2], rfl⟩
      · exact ⟨[0, 1, 2], rfl⟩)
    (by
      intro d hd
      simp only [List.mem_cons, List.not_mem_nil, or_false] at hd
      rcases hd with rfl | rfl <;> exact fun _ _ _ _ => rfl)
    (by
      intro N wk dt w
      obtain ⟨D, hD⟩ := Diffusion.conducting_ok Diffusion.rod_conducting (w .temperature)
      exact ⟨_, Outcome.bind_eq_ok.mpr ⟨D, hD, rfl⟩⟩)
    (fun _ _ _ _ _ => ⟨_, rfl⟩) () () (fun _ _ => 0) 0 [1, 2] (by intro t ht; simp at ht; rcases ht with rfl | rfl <;> norm_num)
  have hfin := C112_completes ⟨0, false, 5⟩ rodEnv rodSolver Diffusion.rod Diffusion.rodNbs
    [ends, warm] hcs rfl rfl (fun _ _ => one_ne_zero) hw Diffusion.rod_conducting rod_conducts rod_exact
    le_rfl (by norm_num) _ _ _ _ _ _ h
  refine ⟨w, x, h, ?_, hfin.1, ?_, fun r hr => ?_⟩
  · have := C110_initial _ _ _ [ends, warm] hcs _ _ _ _ _ _ h 2 2 rfl [ends] [] warm rfl rfl
      ⟨rfl, [0, 1, 2], rfl, by decide⟩ (by simp)
    exact (Option.some.inj this).symm
  · obtain ⟨t0, rest, e, _, _, hiff⟩ := C110_times _ _ _ _ _ _ _ _ _ h
    rw [List.cons.injEq] at e
    rw [e.2]
    exact hiff.mp hfin.1
  · have p0 := C110_prescribed _ _ _ [ends, warm] hcs rfl _ _ _ _ _ _ h r hr [] [warm] ends rfl rfl 0 0
      rfl ⟨rfl, [0, 2], rfl, by decide⟩ (by
        intro d' hd' ht
        rw [List.mem_singleton.mp hd'] at ht
        exact absurd ht (by simp [BC.Thermal, warm]))
    have p2 := C110_prescribed _ _ _ [ends, warm] hcs rfl _ _ _ _ _ _ h r hr [] [warm] ends rfl rfl 2 2
      rfl ⟨rfl, [0, 2], rfl, by decide⟩ (by
        intro d' hd' ht
        rw [List.mem_singleton.mp hd'] at ht
        exact absurd ht (by simp [BC.Thermal, warm]))
    have e0 : r.vecs .temperature 0 = 0 := by
      have := Option.some.inj p0
      rw [← this]
      simp [rodEnv]
    have e2 : r.vecs .temperature 2 = 2 * r.time := by
      have := Option.some.inj p2
      rw [← this]
      simp [rodEnv]
    refine ⟨e0, ?_, e2⟩
    obtain ⟨D, hD, h0⟩ := C112_steady ⟨0, false, 5⟩ rodEnv rodSolver Diffusion.rod Diffusion.rodNbs
      [ends, warm] hcs rfl rfl (fun _ _ => one_ne_zero) hw Diffusion.rod_conducting rod_conducts
      rod_exact rfl (by norm_num) _ _ _ _ _ _ h r hr
    have h1 := h0 1 (by decide) (fun hh => (rod_held 1 (by norm_num)).mp hh rfl)
    rw [rod_flux hD, e0, e2] at h1
    have hk : 0 < Diffusion.conductance Diffusion.rod ⟨1, 0, 1⟩ :=
      Diffusion.conductance_pos Diffusion.rod_conducting ⟨[0, 2], rfl, by decide⟩
    have := (mul_eq_zero.mp h1).resolve_left hk.ne'
    linarith

end Verif.Thermal
