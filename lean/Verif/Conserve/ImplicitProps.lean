import Verif.Conserve.ImplicitSpec
import Verif.Conserve.NewmarkProps

/-! C267: superposition in implicit dynamics. -/

noncomputable section

namespace Verif.Conserve

open Verif Verif.Neigh Verif.Mech

variable {σ σ' σ'' ω ω' ω'' : Type}

/-- What holds after a step that was solved exactly. -/
theorem solved_step {P : Implicit.Params} (hbd : P.beta * P.dt ^ 2 ≠ 0) {E : QuasiStatic.Env} (hm : E.dofs = BC.dispOnly)
    (hcs : BC.makeConditions [] = .ok E.cs) (hown : E.C.owned.Nodup) {C : Config} {K mu : ℝ} {S : Lps.Stored} {nbs : List (List Nat)}
    (hlen : E.C.owned.length = nbs.length) {ghost : (Nat → ℝ) → Nat → ℝ} {T : Implicit.Solver σ ω} (hT : Solves C K mu S nbs ghost T)
    {st : Nat → Implicit.State σ ω} {n m : Nat} (h : SolvedRun P E T st n) (hmn : m < n) :
    ∃ theta F, Lps.evaluate (Lps.displaced C (at3 ((st (m + 1)).vecs .u))) .cells K mu S nbs.length (encode nbs) ghost = .ok (theta, F) ∧
      (∀ l < nbs.length, P.density l • at3 (st (m + 1)).a l = F l) ∧
      ∀ l, at3 ((st (m + 1)).vecs .u) l = at3 ((st m).vecs .u) l + P.dt • at3 ((st m).vecs .v) l +
          (P.dt ^ 2 * (1 / 2 - P.beta)) • at3 (st m).a l + (P.beta * P.dt ^ 2) • at3 (st (m + 1)).a l ∧
        at3 ((st (m + 1)).vecs .v) l = at3 ((st m).vecs .v) l + (P.dt * (1 - P.gamma)) • at3 (st m).a l +
          (P.dt * P.gamma) • at3 (st (m + 1)).a l := by
  obtain ⟨t, F, ht, ⟨theta, hF⟩, hmiss⟩ := C258_balance P E hm hcs hown C K mu S nbs hlen ghost T hT (st 0) (st m) (st (m + 1)) m
    (h.1 m hmn.le) (h.1 (m + 1) hmn)
  refine ⟨theta, F, hF, fun l hl => ?_, fun l => ?_⟩
  · funext k
    have := hmiss l hl k
    rw [h.2 m hmn t ht] at this
    have := (mul_eq_zero.1 (abs_nonpos_iff.1 this)).resolve_left hbd
    exact sub_eq_zero.1 this
  · obtain ⟨s1, e1, -, -, hs⟩ := Implicit.C43_newmark P E T [] hcs (st 0) m (st (m + 1)) (h.1 (m + 1) hmn)
    have := BC.ok_inj (e1.symm.trans (h.1 m hmn.le))
    subst this
    constructor
    · funext k
      show (st (m + 1)).vecs .u (l * 3 + k) = (st m).vecs .u (l * 3 + k) + P.dt * (st m).vecs .v (l * 3 + k) +
        (P.dt ^ 2 * (1 / 2 - P.beta)) * (st m).a (l * 3 + k) + (P.beta * P.dt ^ 2) * (st (m + 1)).a (l * 3 + k)
      rw [(hs _).1]
      ring
    · funext k
      show (st (m + 1)).vecs .v (l * 3 + k) = (st m).vecs .v (l * 3 + k) + (P.dt * (1 - P.gamma)) * (st m).a (l * 3 + k) +
        (P.dt * P.gamma) * (st (m + 1)).a (l * 3 + k)
      rw [(hs _).2.1]
      ring

/-- **C267** If a body of the linear LPS material begins with a linear combination of the displacements, velocities and accelerations of two other
analyses, then it has the same combination of theirs after every step of implicit dynamics, whatever solvers are used and however long the steps
are. -/
theorem C267_superposition (P : Implicit.Params) (hb : 0 < P.beta) (hdt : P.dt ≠ 0) (E : QuasiStatic.Env) (hm : E.dofs = BC.dispOnly)
    (hcs : BC.makeConditions [] = .ok E.cs) (hown : E.C.owned.Nodup) (C : Config) (K mu : ℝ) (hC : Lps.Sound C K mu) (S : Lps.Stored)
    (nbs : List (List Nat)) (hS : Lps.SetUp C nbs S) (hN : Within nbs nbs.length) (hlen : E.C.owned.length = nbs.length)
    (hrho : ∀ l < nbs.length, 0 < P.density l) (ghost : (Nat → ℝ) → Nat → ℝ) (T : Implicit.Solver σ ω) (T' : Implicit.Solver σ' ω')
    (T'' : Implicit.Solver σ'' ω'') (hT : Solves C K mu S nbs ghost T) (hT' : Solves C K mu S nbs ghost T')
    (hT'' : Solves C K mu S nbs ghost T'') (st : Nat → Implicit.State σ ω) (st' : Nat → Implicit.State σ' ω')
    (st'' : Nat → Implicit.State σ'' ω'') (n : Nat) (h : SolvedRun P E T st n) (h' : SolvedRun P E T' st' n) (h'' : SolvedRun P E T'' st'' n)
    (a b : ℝ) (h0 : Combination nbs.length a b (st 0) (st' 0) (st'' 0)) : Combination nbs.length a b (st n) (st' n) (st'' n) := by
  have hbd : 0 < P.beta * P.dt ^ 2 := by positivity
  suffices hmain : ∀ m ≤ n, Combination nbs.length a b (st m) (st' m) (st'' m) from hmain n le_rfl
  intro m
  induction m with
  | zero => exact fun _ => h0
  | succ m ih =>
    intro hle
    have ih := ih (by omega)
    obtain ⟨th, F, hF, ha, hu⟩ := solved_step hbd.ne' hm hcs hown hlen hT h (show m < n by omega)
    obtain ⟨th', F', hF', ha', hu'⟩ := solved_step hbd.ne' hm hcs hown hlen hT' h' (show m < n by omega)
    obtain ⟨th'', F'', hF'', ha'', hu''⟩ := solved_step hbd.ne' hm hcs hown hlen hT'' h'' (show m < n by omega)
    obtain ⟨t, G, hG, -, hGF⟩ := Lps.C136_linear hF hF' a b
    obtain ⟨t2, H, hH, -, hHG⟩ := Lps.C136_linear hG hF'' 1 (-1)
    have hres := (Lps.C136_resists hC hS hH hN).1
    let da : Nat → V3 := fun l => a • at3 (st (m + 1)).a l + b • at3 (st' (m + 1)).a l - at3 (st'' (m + 1)).a l
    have hH' : ∀ l < nbs.length, H l = P.density l • da l := by
      intro l hl
      rw [hHG, hGF, ← ha l hl, ← ha' l hl, ← ha'' l hl]
      simp only [da]
      module
    have hdu : ∀ l < nbs.length, (1 : ℝ) • (a • at3 ((st (m + 1)).vecs .u) l + b • at3 ((st' (m + 1)).vecs .u) l) +
        (-1 : ℝ) • at3 ((st'' (m + 1)).vecs .u) l = (P.beta * P.dt ^ 2) • da l := by
      intro l hl
      obtain ⟨i1, i2, i3⟩ := ih l hl
      rw [(hu l).1, (hu' l).1, (hu'' l).1, i1, i2, i3]
      simp only [da]
      module
    have hterm : ∀ l ∈ Finset.range nbs.length, C.v l * (H l ⬝ᵥ ((1 : ℝ) • (a • at3 ((st (m + 1)).vecs .u) l + b • at3 ((st' (m + 1)).vecs .u) l) +
        (-1 : ℝ) • at3 ((st'' (m + 1)).vecs .u) l)) = C.v l * P.density l * (P.beta * P.dt ^ 2) * (da l ⬝ᵥ da l) := by
      intro l hl
      have hl := Finset.mem_range.1 hl
      rw [hdu l hl, hH' l hl, smul_dotProduct, dotProduct_smul, smul_eq_mul, smul_eq_mul]
      ring
    have hpos : ∀ l ∈ Finset.range nbs.length, 0 ≤ C.v l * P.density l * (P.beta * P.dt ^ 2) * (da l ⬝ᵥ da l) := by
      intro l hl
      have hl := Finset.mem_range.1 hl
      have q : 0 ≤ da l ⬝ᵥ da l := Finset.sum_nonneg fun k _ => mul_self_nonneg _
      have := (hC.volume l).le
      have := (hrho l hl).le
      positivity
    unfold Energy.power at hres
    rw [Finset.sum_congr rfl hterm] at hres
    have hz := (Finset.sum_eq_zero_iff_of_nonneg hpos).1 (le_antisymm hres (Finset.sum_nonneg hpos))
    have hda : ∀ l < nbs.length, da l = 0 := by
      intro l hl
      have q := hz l (Finset.mem_range.2 hl)
      have c : 0 < C.v l * P.density l * (P.beta * P.dt ^ 2) := mul_pos (mul_pos (hC.volume l) (hrho l hl)) hbd
      exact dotProduct_self_eq_zero.1 ((mul_eq_zero.1 q).resolve_left c.ne')
    intro l hl
    obtain ⟨i1, i2, i3⟩ := ih l hl
    have d := hda l hl
    have d3 : at3 (st'' (m + 1)).a l = a • at3 (st (m + 1)).a l + b • at3 (st' (m + 1)).a l := (sub_eq_zero.1 d).symm
    refine ⟨?_, ?_, d3⟩
    · rw [(hu l).1, (hu' l).1, (hu'' l).1, i1, i2, i3, d3]
      module
    · rw [(hu l).2, (hu' l).2, (hu'' l).2, i2, i3, d3]
      module

/-- **C267** Exact implicit dynamics of the linear LPS material does not depend on how the steps are solved: two analyses that begin with the same
displacements, velocities and accelerations have the same after every step. -/
theorem C267_unique (P : Implicit.Params) (hb : 0 < P.beta) (hdt : P.dt ≠ 0) (E : QuasiStatic.Env) (hm : E.dofs = BC.dispOnly)
    (hcs : BC.makeConditions [] = .ok E.cs) (hown : E.C.owned.Nodup) (C : Config) (K mu : ℝ) (hC : Lps.Sound C K mu) (S : Lps.Stored)
    (nbs : List (List Nat)) (hS : Lps.SetUp C nbs S) (hN : Within nbs nbs.length) (hlen : E.C.owned.length = nbs.length)
    (hrho : ∀ l < nbs.length, 0 < P.density l) (ghost : (Nat → ℝ) → Nat → ℝ) (T : Implicit.Solver σ ω) (T' : Implicit.Solver σ' ω')
    (hT : Solves C K mu S nbs ghost T) (hT' : Solves C K mu S nbs ghost T') (st : Nat → Implicit.State σ ω) (st' : Nat → Implicit.State σ' ω')
    (n : Nat) (h : SolvedRun P E T st n) (h' : SolvedRun P E T' st' n)
    (h0 : ∀ l < nbs.length, at3 ((st 0).vecs .u) l = at3 ((st' 0).vecs .u) l ∧ at3 ((st 0).vecs .v) l = at3 ((st' 0).vecs .v) l ∧
      at3 (st 0).a l = at3 (st' 0).a l) :
    ∀ l < nbs.length, at3 ((st n).vecs .u) l = at3 ((st' n).vecs .u) l ∧ at3 ((st n).vecs .v) l = at3 ((st' n).vecs .v) l ∧
      at3 (st n).a l = at3 (st' n).a l := by
  have q := C267_superposition P hb hdt E hm hcs hown C K mu hC S nbs hS hN hlen hrho ghost T T T' hT hT hT' st st st' n h h h' 1 0
    (fun l hl => by
      obtain ⟨e1, e2, e3⟩ := h0 l hl
      rw [e1, e2, e3]
      simp only [one_smul, zero_smul, add_zero, and_self])
  intro l hl
  obtain ⟨e1, e2, e3⟩ := q l hl
  rw [e1, e2, e3]
  simp only [one_smul, zero_smul, add_zero, and_self]

/-- Pairs of points that begin stretched, with and without acceleration, meet the hypotheses of C267 for any number of steps. -/
example (n : Nat) : ∃ (S : Lps.Stored) (st st' st'' : Nat → Implicit.State Unit Unit), 0 < barNewmark.beta ∧ barNewmark.dt ≠ 0 ∧
    barEnv.dofs = BC.dispOnly ∧ BC.makeConditions [] = .ok barEnv.cs ∧ barEnv.C.owned.Nodup ∧ Lps.Sound (Lps.bar 0 0) 1 1 ∧
    Lps.SetUp (Lps.bar 0 0) Lps.barNbs S ∧ Within Lps.barNbs Lps.barNbs.length ∧ barEnv.C.owned.length = Lps.barNbs.length ∧
    (∀ l < Lps.barNbs.length, 0 < barNewmark.density l) ∧ Solves (Lps.bar 0 0) 1 1 S Lps.barNbs (fun t => t) (barSolver S) ∧
    SolvedRun barNewmark barEnv (barSolver S) st n ∧ SolvedRun barNewmark barEnv (barSolver S) st' n ∧
    SolvedRun barNewmark barEnv (barSolver S) st'' n ∧ Combination Lps.barNbs.length 3 (-2) (st 0) (st' 0) (st'' 0) ∧
    (st 0).vecs .u 3 = 1 ∧ (st 0).a 0 = 0 ∧ (st' 0).a 0 = 18 ∧ (st'' 0).a 0 = -36 := by
  obtain ⟨S, hS⟩ := Lps.setUp_exists (Lps.bar 0 0) Lps.barNbs
  obtain ⟨st, i0, i1, i2⟩ := bar_run hS (barState fun _ => 0)
  obtain ⟨st', j0, j1, j2⟩ := bar_run hS (barState fun i => if i = 0 then 18 else 0)
  obtain ⟨st'', k0, k1, k2⟩ := bar_run hS (barState fun i => if i = 0 then -36 else 0)
  refine ⟨S, st, st', st'', by norm_num [barNewmark], by norm_num [barNewmark], rfl, rfl, by decide, bar_sound, hS, Lps.bar_within, rfl,
    fun _ _ => one_pos, barSolver_solves S, ⟨fun m _ => by rw [i0]; exact i1 m, fun m _ => i2 m⟩, ⟨fun m _ => by rw [j0]; exact j1 m, fun m _ => j2 m⟩,
    ⟨fun m _ => by rw [k0]; exact k1 m, fun m _ => k2 m⟩, ?_, by rw [i0]; simp [barState], by rw [i0]; rfl, by rw [j0]; simp [barState],
    by rw [k0]; simp [barState]⟩
  rw [i0, j0, k0]
  intro l _
  refine ⟨?_, ?_, ?_⟩
  all_goals
    funext k
    simp only [barState, at3, Pi.add_apply, Pi.smul_apply, smul_eq_mul]
    (try split) <;> simp_all <;> norm_num

end Verif.Conserve
