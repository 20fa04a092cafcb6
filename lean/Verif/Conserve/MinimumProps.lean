import Verif.Conserve.MinimumSpec
import Verif.Conserve.UniqueProps

/-! C261: quasi-static solutions minimise the potential energy. -/

noncomputable section

namespace Verif.Conserve

open Verif Verif.Neigh Verif.Mech

variable {σ ω : Type}

/-- What is lost in going from the solution to other displacements. -/
theorem potential_gap {C : Config} {K mu : ℝ} {S : Lps.Stored} {nbs : List (List Nat)} (hN : Within nbs nbs.length)
    {ghost : (Nat → ℝ) → Nat → ℝ} {u w ext : Nat → ℝ} {F Fw : Nat → V3} (hF : LpsForce C K mu S nbs ghost u F)
    (hw : LpsForce C K mu S nbs ghost w Fw) :
    ∃ t G, Lps.evaluate (Lps.displaced C fun l => at3 w l - at3 u l) .cells K mu S nbs.length (encode nbs) ghost = .ok (t, G) ∧
      potential C.v nbs.length Fw ext w - potential C.v nbs.length F ext u =
        -(1 / 2) * Energy.power C G (fun l => at3 w l - at3 u l) nbs.length -
          ∑ l ∈ Finset.range nbs.length, C.v l * ((F l + at3 ext l) ⬝ᵥ (at3 w l - at3 u l)) := by
  obtain ⟨th, hF⟩ := hF
  obtain ⟨thw, hw⟩ := hw
  obtain ⟨t, G, hG, -, hGF⟩ := Lps.C136_linear hw hF 1 (-1)
  have e1 : (fun k => (1 : ℝ) • at3 w k + (-1 : ℝ) • at3 u k) = fun l => at3 w l - at3 u l := by
    funext k
    rw [one_smul, neg_one_smul, sub_eq_add_neg]
  rw [e1] at hG
  refine ⟨t, G, hG, ?_⟩
  have hrec := Lps.C136_reciprocal hw hF hN
  unfold Energy.power at hrec ⊢
  unfold potential stored
  have hz : ∑ l ∈ Finset.range nbs.length, (C.v l * (Fw l ⬝ᵥ at3 u l) - C.v l * (F l ⬝ᵥ at3 w l)) = 0 := by
    rw [Finset.sum_sub_distrib, hrec, sub_self]
  rw [← sub_eq_zero]
  have hgoal : ∀ a b c d e f : ℝ, a - b - (c - d) - (e - f) = a + d + f - b - c - e := by intros; ring
  rw [hgoal, Finset.mul_sum, Finset.mul_sum, Finset.mul_sum, ← Finset.sum_add_distrib, ← Finset.sum_add_distrib, ← Finset.sum_sub_distrib,
    ← Finset.sum_sub_distrib, ← Finset.sum_sub_distrib]
  rw [← mul_zero (-(1 / 2 : ℝ)), ← hz, Finset.mul_sum]
  refine Finset.sum_congr rfl fun l _ => ?_
  have hg : G l = Fw l - F l := by rw [hGF, one_smul, neg_one_smul, sub_eq_add_neg]
  rw [hg]
  simp only [sub_dotProduct, dotProduct_sub, add_dotProduct]
  ring

/-- The forces that are left at a completed load step do little work against changes of the displacements. -/
theorem completed_work {P : QuasiStatic.Params} {E : QuasiStatic.Env} {T : QuasiStatic.Solver σ ω} {ds : List BC.Definition}
    (hcs : BC.makeConditions ds = .ok E.cs) (hm : E.dofs = BC.dispOnly) (hown : E.C.owned.Nodup) {C : Config} {K mu : ℝ}
    {S : Lps.Stored} {nbs : List (List Nat)} (hlen : E.C.owned.length = nbs.length) (hvol : ∀ l < nbs.length, E.volume l = C.v l)
    {ghost : (Nat → ℝ) → Nat → ℝ} (hT : Evaluates E.C C K mu S nbs ghost T) {t0 : ℝ} {vecs : BC.Vecs} (hb : Begins E ds t0 vecs)
    {r : QuasiStatic.Record ω} (h : Completed P E T t0 vecs r) (h0 : 0 ≤ r.attempt.tol) (h1 : r.attempt.tol ≤ 10 ^ 48) :
    ∃ F, LpsForce C K mu S nbs ghost (r.vecs .u) F ∧ ∀ w, Admissible E ds r.time w →
      ∑ l ∈ Finset.range nbs.length, C.v l * ((F l + at3 (r.vecs .externalForce) l) ⬝ᵥ (at3 w l - at3 (r.vecs .u) l)) ≤
        100 / 21 * r.attempt.tol * ∑ l ∈ Finset.range nbs.length, ∑ k : Fin 3, |at3 w l k - at3 (r.vecs .u) l k| := by
  obtain ⟨F, hF, hbal, hfix, hval⟩ := completed_parts hcs hm hT h hb h0 h1
  refine ⟨F, hF, fun w hadm => ?_⟩
  rw [Finset.mul_sum]
  refine Finset.sum_le_sum fun l hl => ?_
  have hl := Finset.mem_range.mp hl
  have hl' : l < E.C.owned.length := by omega
  have hlid : BC.lid E.C.owned E.C.owned[l] = some l := by
    unfold BC.lid
    rw [if_pos (List.getElem_mem hl'), hown.idxOf_getElem]
  unfold dotProduct
  rw [Finset.mul_sum, Finset.mul_sum]
  refine Finset.sum_le_sum fun k _ => ?_
  show C.v l * ((F l k + r.vecs .externalForce (l * 3 + k)) * (at3 w l k - at3 (r.vecs .u) l k)) ≤ _
  by_cases hc : BC.Constrained E.dofs E.C.sets E.cs.boundary E.C.owned[l] .displacement k
  · obtain ⟨d1, hd1, ht1, hc1⟩ := hfix _ l k hlid hc
    obtain ⟨pre, d, post, e, ⟨hdt, hdc⟩, hpost⟩ := last_with (fun d => d.type = .prescribedDisplacement ∧ BC.Covers E.C.sets d E.C.owned[l] k)
      ds ⟨d1, hd1, ht1, hc1⟩
    have hp : ∀ d' ∈ post, d'.type = .prescribedDisplacement → ¬ BC.Covers E.C.sets d' E.C.owned[l] k := fun d' h1 h2 h3 => hpost d' h1 ⟨h2, h3⟩
    have q1 := hval _ l k pre d post hlid e hdt hdc hp
    rw [hadm _ l k pre d post hlid e hdt hdc hp] at q1
    have q : at3 w l k = at3 (r.vecs .u) l k := Option.some.inj q1
    rw [q, sub_self, mul_zero, mul_zero, abs_zero, mul_zero]
  · have b1 := hbal _ l k hlid k.isLt hl hc
    rw [hvol l hl] at b1
    generalize at3 w l k - at3 (r.vecs .u) l k = dl at *
    generalize r.vecs .externalForce (l * 3 + k) = ex at *
    have e2 : C.v l * ((F l k + ex) * dl) = (F l k + ex) * C.v l * dl := by ring
    rw [e2]
    refine (le_abs_self _).trans ?_
    rw [abs_mul]
    refine mul_le_mul_of_nonneg_right ?_ (abs_nonneg _)
    have b2 : 21 * |(F l k + ex) * C.v l| ≤ 100 * r.attempt.tol := b1
    linarith

/-- **C261** In every completed load step of a quasi-static analysis of a body of the linear LPS material the potential energy is least, up to the
tolerance, among all displacements that have the prescribed values. -/
theorem C261_minimum (P : QuasiStatic.Params) (E : QuasiStatic.Env) (T : QuasiStatic.Solver σ ω) (ds : List BC.Definition)
    (hcs : BC.makeConditions ds = .ok E.cs) (hm : E.dofs = BC.dispOnly) (hown : E.C.owned.Nodup) (C : Config) (K mu : ℝ) (ha : Lps.Sound C K mu)
    (S : Lps.Stored) (nbs : List (List Nat)) (hlen : E.C.owned.length = nbs.length) (hvol : ∀ l < nbs.length, E.volume l = C.v l)
    (hS : Lps.SetUp C nbs S) (hN : Within nbs nbs.length) (ghost : (Nat → ℝ) → Nat → ℝ) (hT : Evaluates E.C C K mu S nbs ghost T) (t0 : ℝ)
    (vecs : BC.Vecs) (hb : Begins E ds t0 vecs) (r : QuasiStatic.Record ω) (h : Completed P E T t0 vecs r) (h0 : 0 ≤ r.attempt.tol)
    (h1 : r.attempt.tol ≤ 10 ^ 48) :
    ∃ F, LpsForce C K mu S nbs ghost (r.vecs .u) F ∧ ∀ w Fw, Admissible E ds r.time w → LpsForce C K mu S nbs ghost w Fw →
      potential C.v nbs.length F (r.vecs .externalForce) (r.vecs .u) ≤ potential C.v nbs.length Fw (r.vecs .externalForce) w +
        100 / 21 * r.attempt.tol * ∑ l ∈ Finset.range nbs.length, ∑ k : Fin 3, |at3 w l k - at3 (r.vecs .u) l k| := by
  obtain ⟨F, hF, hsmall⟩ := completed_work hcs hm hown hlen hvol hT hb h h0 h1
  refine ⟨F, hF, fun w Fw hadm hw => ?_⟩
  obtain ⟨t, G, hG, hgap⟩ := potential_gap (ext := r.vecs .externalForce) hN hF hw
  have hres := (Lps.C136_resists ha hS hG hN).1
  have hsum := hsmall w hadm
  linarith

/-- **C261** With an exact solve the potential energy has no other minimum: displacements with the prescribed values whose potential energy is not
greater have the same bond lengths to first order. -/
theorem C261_only (P : QuasiStatic.Params) (E : QuasiStatic.Env) (T : QuasiStatic.Solver σ ω) (ds : List BC.Definition)
    (hcs : BC.makeConditions ds = .ok E.cs) (hm : E.dofs = BC.dispOnly) (hown : E.C.owned.Nodup) (C : Config) (K mu : ℝ) (ha : Lps.Sound C K mu)
    (S : Lps.Stored) (nbs : List (List Nat)) (hlen : E.C.owned.length = nbs.length) (hvol : ∀ l < nbs.length, E.volume l = C.v l)
    (hS : Lps.SetUp C nbs S) (hN : Within nbs nbs.length) (ghost : (Nat → ℝ) → Nat → ℝ) (hT : Evaluates E.C C K mu S nbs ghost T) (t0 : ℝ)
    (vecs : BC.Vecs) (hb : Begins E ds t0 vecs) (r : QuasiStatic.Record ω) (h : Completed P E T t0 vecs r) (h0 : r.attempt.tol = 0)
    (w : Nat → ℝ) (F Fw : Nat → V3) (hadm : Admissible E ds r.time w) (hF : LpsForce C K mu S nbs ghost (r.vecs .u) F)
    (hw : LpsForce C K mu S nbs ghost w Fw)
    (hle : potential C.v nbs.length Fw (r.vecs .externalForce) w ≤ potential C.v nbs.length F (r.vecs .externalForce) (r.vecs .u)) :
    Lps.LengthsKept C nbs fun l => at3 w l - at3 (r.vecs .u) l := by
  obtain ⟨F', hF', hsmall⟩ := completed_work hcs hm hown hlen hvol hT hb h h0.ge (by rw [h0]; norm_num)
  have hsum := hsmall w hadm
  rw [h0, mul_zero, zero_mul] at hsum
  have e : F' = F := by
    obtain ⟨th, q⟩ := hF
    obtain ⟨th', q'⟩ := hF'
    rw [q] at q'
    exact (Prod.ext_iff.1 (Outcome.ok.inj q')).2.symm
  rw [e] at hsum
  obtain ⟨t, G, hG, hgap⟩ := potential_gap (ext := r.vecs .externalForce) hN hF hw
  obtain ⟨hneg, hiff⟩ := Lps.C136_resists ha hS hG hN
  exact hiff.1 (le_antisymm hneg (by linarith))

/-- The bar whose first point is moved meets the hypotheses of C261, and leaving the second point behind costs energy. -/
example : ∃ S r w Fw, BC.makeConditions [pullBar] = .ok heldBar.cs ∧ heldBar.dofs = BC.dispOnly ∧ heldBar.C.owned.Nodup ∧
    Lps.Sound (Lps.bar 0 0) 1 1 ∧ heldBar.C.owned.length = Lps.barNbs.length ∧
    (∀ l < Lps.barNbs.length, heldBar.volume l = (Lps.bar 0 0).v l) ∧ Lps.SetUp (Lps.bar 0 0) Lps.barNbs S ∧
    Within Lps.barNbs Lps.barNbs.length ∧ Evaluates heldBar.C (Lps.bar 0 0) 1 1 S Lps.barNbs (fun t => t) (heldSolver S) ∧
    Begins heldBar [pullBar] 0 (fun _ _ => 0) ∧ Completed exactParams heldBar (heldSolver S) 0 (fun _ _ => 0) r ∧ r.attempt.tol = 0 ∧
    Admissible heldBar [pullBar] r.time w ∧ LpsForce (Lps.bar 0 0) 1 1 S Lps.barNbs (fun t => t) w Fw ∧ w 0 = 1 ∧ w 3 = 0 ∧
    stored (Lps.bar 0 0).v Lps.barNbs.length Fw w = 9 := by
  obtain ⟨S, hS⟩ := Lps.setUp_exists (Lps.bar 0 0) Lps.barNbs
  obtain ⟨r, h, ht, htol⟩ := held_completed hS 1 one_pos
  obtain ⟨th, Fw, hF⟩ := Lps.C135_defined (C := Lps.displaced (Lps.bar 0 0) (at3 fun i => if i = 0 then 1 else 0)) 1 1 (Lps.bar_ready hS) (fun t => t)
  refine ⟨S, r, fun i => if i = 0 then 1 else 0, Fw, held_conditions, rfl, by decide, bar_sound, rfl, fun _ _ => rfl, hS, Lps.bar_within,
    held_evaluates S, held_begins, h, htol, ?_, ⟨th, hF⟩, rfl, rfl, ?_⟩
  · intro g l k pre d post hl he _ hcov _
    have hd : d = pullBar := by
      have : d ∈ [pullBar] := by rw [he]; simp
      exact List.mem_singleton.1 this
    subst hd
    obtain ⟨hk, nodes, hs, hg⟩ := hcov
    have hn : nodes = [0] := (Option.some.inj hs).symm
    rw [hn] at hg
    have hg0 : g = 0 := List.mem_singleton.1 hg
    subst hg0
    have hl0 : l = 0 := (Option.some.inj hl).symm
    have hk0 : k = 0 := hk.symm
    subst hl0 hk0
    rw [ht]
    rfl
  · obtain ⟨b0, b1⟩ := bar_displaced hS hF
    have e : Lps.barNbs.length = 2 := rfl
    unfold stored
    rw [e, Finset.sum_range_succ, Finset.sum_range_one, b0, b1]
    simp [at3, dotProduct, Fin.sum_univ_three, Lps.bar]
    norm_num

end Verif.Conserve
