import Verif.Conserve.LoadSpec
import Verif.Conserve.MinimumProps

/-! C265: quasi-static solutions of the linear material superpose. -/

noncomputable section

namespace Verif.Conserve

open Verif Verif.Neigh Verif.Mech

variable {ω ω' ω'' : Type}

/-- Forces of an exact solution: they balance the body forces at free degrees of freedom, and the others have the prescribed displacements. -/
theorem exact_parts {C : Config} {K mu : ℝ} {S : Lps.Stored} {nbs : List (List Nat)} {ghost : (Nat → ℝ) → Nat → ℝ} {E : QuasiStatic.Env}
    {ds : List BC.Definition} {r : QuasiStatic.Record ω} (h : Exact C K mu S nbs ghost E ds r) :
    ∃ F, LpsForce C K mu S nbs ghost (r.vecs .u) F ∧
      (∀ l < nbs.length, ∀ k : Fin 3, ¬ Fixed E l k → (F l k + at3 (r.vecs .externalForce) l k) * C.v l = 0) ∧
      ∀ w, Admissible E ds r.time w → ∀ l k, Fixed E l k → r.vecs .u (l * 3 + k) = w (l * 3 + k) := by
  obtain ⟨σ, P, T, t0, vecs, hT, hb, hc⟩ := h.completed
  obtain ⟨F, hF, hbal, hfix, hval⟩ := completed_parts h.conditions h.dofs hT hc hb h.solved.ge (by rw [h.solved]; norm_num)
  refine ⟨F, hF, fun l hl k hk => ?_, fun w hw l k hk => ?_⟩
  · have hl' : l < E.C.owned.length := by rw [h.points]; exact hl
    have hlid : BC.lid E.C.owned E.C.owned[l] = some l := by
      unfold BC.lid
      rw [if_pos (List.getElem_mem hl'), h.nodup.idxOf_getElem]
    have b := hbal _ l k hlid k.isLt hl fun hc => hk ⟨_, hlid, hc⟩
    rw [h.volumes l hl, h.solved, mul_zero] at b
    have b' : |(F l k + r.vecs .externalForce (l * 3 + k)) * C.v l| ≤ 0 := by
      have : 21 * |(F l k + r.vecs .externalForce (l * 3 + k)) * C.v l| ≤ 0 := b
      linarith
    exact abs_nonpos_iff.1 b'
  · obtain ⟨g, hlid, hc⟩ := hk
    obtain ⟨d1, hd1, ht1, hc1⟩ := hfix _ l k hlid hc
    obtain ⟨pre, d, post, e, ⟨hdt, hdc⟩, hpost⟩ := last_with (fun d => d.type = .prescribedDisplacement ∧ BC.Covers E.C.sets d g k)
      ds ⟨d1, hd1, ht1, hc1⟩
    have hp : ∀ d' ∈ post, d'.type = .prescribedDisplacement → ¬ BC.Covers E.C.sets d' g k := fun d' h1 h2 h3 => hpost d' h1 ⟨h2, h3⟩
    have q1 := hval _ l k pre d post hlid e hdt hdc hp
    rw [hw _ l k pre d post hlid e hdt hdc hp] at q1
    exact (Option.some.inj q1).symm

/-- **C265** If the prescribed displacements and the body forces of an analysis are linear combinations of those of two others, and it fixes what they
fix, then its displacements are the same combination up to a motion that keeps the lengths of all bonds to first order. -/
theorem C265_superposition (C : Config) (K mu : ℝ) (ha : Lps.Sound C K mu) (S : Lps.Stored) (nbs : List (List Nat)) (hS : Lps.SetUp C nbs S)
    (hN : Within nbs nbs.length) (ghost : (Nat → ℝ) → Nat → ℝ) (E E' E'' : QuasiStatic.Env) (ds ds' ds'' : List BC.Definition)
    (r : QuasiStatic.Record ω) (r' : QuasiStatic.Record ω') (r'' : QuasiStatic.Record ω'') (h : Exact C K mu S nbs ghost E ds r)
    (h' : Exact C K mu S nbs ghost E' ds' r') (h'' : Exact C K mu S nbs ghost E'' ds'' r'') (a b : ℝ)
    (hfix : ∀ l k, Fixed E l k ∨ Fixed E' l k → Fixed E'' l k)
    (hdisp : Admissible E'' ds'' r''.time fun i => a * r.vecs .u i + b * r'.vecs .u i)
    (hext : ∀ i < 3 * nbs.length, r''.vecs .externalForce i = a * r.vecs .externalForce i + b * r'.vecs .externalForce i) :
    Lps.LengthsKept C nbs fun l => (a • at3 (r.vecs .u) l + b • at3 (r'.vecs .u) l) - at3 (r''.vecs .u) l := by
  obtain ⟨F, ⟨th, hF⟩, hbal, -⟩ := exact_parts h
  obtain ⟨F', ⟨th', hF'⟩, hbal', -⟩ := exact_parts h'
  obtain ⟨F'', ⟨th'', hF''⟩, hbal'', hval⟩ := exact_parts h''
  obtain ⟨t, G, hG, -, hGF⟩ := Lps.C136_linear hF hF' a b
  obtain ⟨t2, H, hH, -, hHG⟩ := Lps.C136_linear hG hF'' 1 (-1)
  have e1 : (fun k => (1 : ℝ) • (a • at3 (r.vecs .u) k + b • at3 (r'.vecs .u) k) + (-1 : ℝ) • at3 (r''.vecs .u) k) =
      fun l => (a • at3 (r.vecs .u) l + b • at3 (r'.vecs .u) l) - at3 (r''.vecs .u) l := by
    funext k
    rw [one_smul, neg_one_smul, sub_eq_add_neg]
  rw [e1] at hH
  refine (Lps.C136_resists ha hS hH hN).2.1 ?_
  unfold Energy.power
  refine Finset.sum_eq_zero fun l hl => ?_
  have hl := Finset.mem_range.mp hl
  unfold dotProduct
  rw [Finset.mul_sum]
  refine Finset.sum_eq_zero fun k _ => ?_
  show C.v l * (H l k * (a * r.vecs .u (l * 3 + k) + b * r'.vecs .u (l * 3 + k) - r''.vecs .u (l * 3 + k))) = 0
  by_cases hc : Fixed E'' l k
  · rw [hval _ hdisp l k hc, sub_self, mul_zero, mul_zero]
  · have b1 := hbal l hl k fun q => hc (hfix l k (Or.inl q))
    have b2 := hbal' l hl k fun q => hc (hfix l k (Or.inr q))
    have b3 := hbal'' l hl k hc
    have hi : l * 3 + (k : Nat) < 3 * nbs.length := by have := k.isLt; omega
    have e3 : at3 (r''.vecs .externalForce) l k = a * at3 (r.vecs .externalForce) l k + b * at3 (r'.vecs .externalForce) l k := hext _ hi
    rw [e3] at b3
    have hh : H l k = a * F l k + b * F' l k - F'' l k := by
      rw [hHG, hGF]
      show 1 * (a * F l k + b * F' l k) + -1 * F'' l k = _
      ring
    have hz : H l k * C.v l = 0 := by
      rw [hh]
      linear_combination a * b1 + b * b2 - b3
    rw [← mul_assoc, mul_comm (C.v l), hz, zero_mul]

/-- **C265** In every displacement that the boundary conditions and the lengths of the bonds determine, the solution is the combination. -/
theorem C265_determined (C : Config) (K mu : ℝ) (ha : Lps.Sound C K mu) (S : Lps.Stored) (nbs : List (List Nat)) (hS : Lps.SetUp C nbs S)
    (hN : Within nbs nbs.length) (ghost : (Nat → ℝ) → Nat → ℝ) (E E' E'' : QuasiStatic.Env) (ds ds' ds'' : List BC.Definition)
    (r : QuasiStatic.Record ω) (r' : QuasiStatic.Record ω') (r'' : QuasiStatic.Record ω'') (h : Exact C K mu S nbs ghost E ds r)
    (h' : Exact C K mu S nbs ghost E' ds' r') (h'' : Exact C K mu S nbs ghost E'' ds'' r'') (a b : ℝ)
    (hfix : ∀ l k, Fixed E l k ∨ Fixed E' l k → Fixed E'' l k)
    (hdisp : Admissible E'' ds'' r''.time fun i => a * r.vecs .u i + b * r'.vecs .u i)
    (hext : ∀ i < 3 * nbs.length, r''.vecs .externalForce i = a * r.vecs .externalForce i + b * r'.vecs .externalForce i)
    (p : Nat) (j : Fin 3) (hdet : ∀ w, Lps.LengthsKept C nbs w → (∀ l, ∀ k : Fin 3, Fixed E'' l k → w l k = 0) → w p j = 0) :
    r''.vecs .u (p * 3 + j) = a * r.vecs .u (p * 3 + j) + b * r'.vecs .u (p * 3 + j) := by
  have hk := C265_superposition C K mu ha S nbs hS hN ghost E E' E'' ds ds' ds'' r r' r'' h h' h'' a b hfix hdisp hext
  obtain ⟨-, -, -, hval⟩ := exact_parts h''
  have := hdet _ hk fun l k hf => ?_
  · exact (sub_eq_zero.1 this).symm
  · show a * r.vecs .u (l * 3 + k) + b * r'.vecs .u (l * 3 + k) - r''.vecs .u (l * 3 + k) = 0
    rw [hval _ hdisp l k hf, sub_self]

/-! ## The bar whose first point is moved, at different times -/

theorem held_admissible {t : ℝ} {w : Nat → ℝ} (hw : w 0 = t) : Admissible heldBar [pullBar] t w := by
  intro g l k pre d post hl he _ hcov _
  have hd : d = pullBar := by
    have : d ∈ [pullBar] := by rw [he]; simp
    exact List.mem_singleton.1 this
  subst hd
  obtain ⟨hk, nodes, hs, hg⟩ := hcov
  have hn : nodes = [0] := (Option.some.inj hs).symm
  rw [hn] at hg
  have hg0 : g = 0 := List.mem_singleton.1 hg
  subst hg0
  have hl0 : l = 0 := (Option.some.inj hl).symm
  have hk0 : k = 0 := hk.symm
  subst hl0 hk0
  show some t = some (w 0)
  rw [hw]

theorem held_exact {S : Lps.Stored} (hS : Lps.SetUp (Lps.bar 0 0) Lps.barNbs S) (t : ℝ) (ht : 0 < t) :
    ∃ r : QuasiStatic.Record Unit, Exact (Lps.bar 0 0) 1 1 S Lps.barNbs (fun t => t) heldBar [pullBar] r ∧ r.time = t ∧ r.vecs .u 0 = t ∧
      ∀ i < 6, r.vecs .externalForce i = 0 := by
  obtain ⟨r, h, hrt, htol⟩ := held_completed hS t ht
  have hex : Exact (Lps.bar 0 0) 1 1 S Lps.barNbs (fun t => t) heldBar [pullBar] r :=
    ⟨held_conditions, rfl, by decide, rfl, fun _ _ => rfl, htol, Unit, exactParams, heldSolver S, 0, fun _ _ => 0, held_evaluates S, held_begins, h⟩
  refine ⟨r, hex, hrt, ?_, fun i hi => ?_⟩
  · obtain ⟨-, -, -, hval⟩ := exact_parts hex
    exact hval (fun _ => t) (held_admissible hrt.symm) 0 0
      ⟨0, rfl, rfl, BC.obj pullBar .deltaU (.increment 1 0 false), List.mem_cons_self .., rfl, rfl, [0], rfl, by simp⟩
  · obtain ⟨rest, N, work, tf, s0, n, x, hst, hrun, hr⟩ := h
    have hlid : ∃ g, BC.lid heldBar.C.owned g = some (i / 3) := by
      have : i / 3 = 0 ∨ i / 3 = 1 := by omega
      rcases this with q | q <;> rw [q]
      · exact ⟨0, rfl⟩
      · exact ⟨1, rfl⟩
    obtain ⟨g, hl⟩ := hlid
    have := (QuasiStatic.C42_body_force exactParams heldBar (heldSolver S) [pullBar] held_conditions _ _ N work tf s0 hst n x hrun r hr g (i / 3)
      (i % 3) hl (by omega)).1 fun d hd hty => by
        rw [List.mem_singleton.1 hd] at hty
        exact absurd hty (by decide)
    rwa [show i / 3 * 3 + i % 3 = i by omega] at this

/-- The load steps to the times 1, 2 and 3 of the bar meet the hypotheses of C265; the third is the sum of the others. -/
example : ∃ (S : Lps.Stored) (r r' r'' : QuasiStatic.Record Unit),
    Exact (Lps.bar 0 0) 1 1 S Lps.barNbs (fun t => t) heldBar [pullBar] r ∧ Exact (Lps.bar 0 0) 1 1 S Lps.barNbs (fun t => t) heldBar [pullBar] r' ∧
    Exact (Lps.bar 0 0) 1 1 S Lps.barNbs (fun t => t) heldBar [pullBar] r'' ∧ r.vecs .u 0 = 1 ∧ r'.vecs .u 0 = 2 ∧ r''.vecs .u 0 = 3 ∧
    r''.vecs .u 3 = r.vecs .u 3 + r'.vecs .u 3 := by
  obtain ⟨S, hS⟩ := Lps.setUp_exists (Lps.bar 0 0) Lps.barNbs
  obtain ⟨r, h, -, hu, he⟩ := held_exact hS 1 one_pos
  obtain ⟨r', h', -, hu', he'⟩ := held_exact hS 2 two_pos
  obtain ⟨r'', h'', ht, hu'', he''⟩ := held_exact hS 3 three_pos
  refine ⟨S, r, r', r'', h, h', h'', hu, hu', hu'', ?_⟩
  have q : r''.vecs .u 3 = 1 * r.vecs .u 3 + 1 * r'.vecs .u 3 := C265_determined (Lps.bar 0 0) 1 1 bar_sound S Lps.barNbs hS Lps.bar_within (fun t => t) heldBar heldBar heldBar [pullBar] [pullBar]
    [pullBar] r r' r'' h h' h'' 1 1 (fun _ _ q => q.elim id id)
    (by rw [ht]; exact held_admissible (by rw [hu, hu']; norm_num))
    (fun i hi => by
      have hi : i < 6 := hi
      rw [he i hi, he' i hi, he'' i hi]; ring) 1 0
    (fun w hk hc => held_determined w hk fun g l k hl hcon => hc l k ⟨g, hl, hcon⟩)
  rwa [one_mul, one_mul] at q

end Verif.Conserve
