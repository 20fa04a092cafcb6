import Verif.Lps.CaseProps

/-!
# C137: the linear solid is the linearisation of the nonlinear one
-/

noncomputable section

namespace Verif.Lps

open Verif Verif.Neigh Verif.Mech Verif.Energy
open scoped Classical Topology

/-- What the nonlinear material computes at a point. -/
theorem elastic_at {C : Config} {K mu : ℝ} {nbs : List (List Nat)} {th theta : Nat → ℝ} {F : Nat → V3}
    (h : elasticMaterial C K mu nbs.length (encode nbs) th = .ok (theta, F)) :
    (∀ p < nbs.length, theta p = theta' C nbs p) ∧ ∀ k, F k = ((bondsOf nbs).map fun b =>
      pull (selfVol C) (nbrVol C) k (b, (tension C K mu (theta' C nbs) b / C.dY b) • C.yd b)).sum := by
  obtain ⟨h1, _⟩ := elastic_parts h
  have hth : ∀ p < nbs.length, theta p = theta' C nbs p := fun p hp => dilatation_eq h1 hp
  refine ⟨hth, fun k => ?_⟩
  have hs := (elastic_scattered h).mono (Q := fun b g => g = (tension C K mu theta b / C.dY b) • C.yd b)
    fun b _ g hg => (elasticBond_eq hg).2.2
  rw [scattered_at hs k]
  congr 1
  apply List.map_congr_left
  intro b hb
  obtain ⟨ns, hp, _⟩ := mem_bondsOf hb
  simp only [tension, hth _ (List.getElem?_eq_some_iff.1 hp).1]

theorem displaced_eq (C : Config) (u : Nat → V3) (s : ℝ) :
    displaced C (fun k => s • u k) = shifted (displaced C 0) u s := by
  unfold displaced shifted
  simp

theorem zero_yd (C : Config) (b : Bond) : (displaced C 0).yd b = xd C b := by
  simp [Config.yd, displaced, xd]

theorem zero_dY (C : Config) (b : Bond) : (displaced C 0).dY b = C.zeta b := by
  rw [Config.dY, zero_yd]
  rfl

theorem zero_ext {C : Config} (hC : C.thermal = none) (b : Bond) : (displaced C 0).ext b = 0 := by
  have : (displaced C 0).thermal = none := hC
  unfold Config.ext
  rw [this]
  simp only
  rw [zero_dY]
  exact sub_self _

theorem zero_rate (C : Config) (u : Nat → V3) (b : Bond) : rate (displaced C 0) u b = along C u b / C.zeta b := by
  rw [rate, zero_yd, zero_dY]
  rfl

theorem zero_theta {C : Config} (hC : C.thermal = none) (nbs : List (List Nat)) (p : Nat) :
    theta' (displaced C 0) nbs p = 0 := by
  unfold theta'
  apply List.sum_eq_zero
  intro x hx
  obtain ⟨b, _, rfl⟩ := List.mem_map.1 hx
  rw [zero_ext hC]
  ring

theorem list_deriv_map {l : List Bond} {f : Bond → ℝ → V3} {f' : Bond → V3} {c : Fin 3}
    (h : ∀ b ∈ l, HasDerivAt (fun s => f b s c) (f' b c) 0) :
    HasDerivAt (fun s => (l.map fun b => f b s).sum c) ((l.map f').sum c) 0 := by
  induction l with
  | nil => simpa using hasDerivAt_const (0 : ℝ) (0 : ℝ)
  | cons b l ih =>
    simp only [List.map_cons, List.sum_cons, Pi.add_apply]
    exact (h b List.mem_cons_self).add (ih fun c hc => h c (List.mem_cons_of_mem _ hc))

theorem pull_deriv {vi vj : Bond → ℝ} {k : Nat} {b : Bond} {g : ℝ → V3} {g' : V3} {c : Fin 3}
    (h : HasDerivAt (fun s => g s c) (g' c) 0) :
    HasDerivAt (fun s => pull vi vj k (b, g s) c) (pull vi vj k (b, g') c) 0 := by
  unfold pull
  simp only [Pi.sub_apply]
  refine HasDerivAt.sub ?_ ?_
  · split
    · simpa using h.const_mul (vj b)
    · simpa using hasDerivAt_const (0 : ℝ) (0 : ℝ)
  · split
    · simpa using h.const_mul (vi b)
    · simpa using hasDerivAt_const (0 : ℝ) (0 : ℝ)

/-- The dilatation of the nonlinear material changes as that of the linear one. -/
theorem theta_tangent {C : Config} (hC : C.thermal = none) {nbs : List (List Nat)} {S : Stored} (hS : SetUp C nbs S)
    (hw : Weighted C nbs) (hb : ∀ b ∈ bondsOf nbs, S.m b.i ≠ 0 ∧ C.zeta b ≠ 0) (u : Nat → V3) {p : Nat} (hp : p < nbs.length) :
    HasDerivAt (fun s : ℝ => theta' (displaced C fun k => s • u k) nbs p) (dil C S nbs u p) 0 := by
  have hm : C.m p = S.m p := by rw [weighted_eq hw hp, (setUp_spec hS).2 p hp]
  have h := Energy.theta_deriv (C := displaced C 0) (nbs := nbs) u p (fun b hb' => by
    rw [zero_dY]
    exact (hb b hb').2)
  simp only [displaced_eq]
  refine h.congr_deriv ?_
  unfold thetaRate dil
  rw [← sum_scale]
  congr 1
  apply List.map_congr_left
  intro b hb'
  have hz := (hb b (List.mem_filter.1 hb').1).2
  rw [zero_rate, wt, (setUp_spec hS).1 b (List.mem_filter.1 hb').1, ← hm]
  show 3 * ((1 - C.damage b.b) * C.om b * C.v b.j) * C.zeta b * (along C u b / C.zeta b) / C.m p = _
  field_simp

/-- **C137** If every bond is intact or broken, the force of the linear material is the derivative, in the direction of the
displacement and at the reference configuration, of the force of the nonlinear elastic material; and so for the dilatation. -/
theorem C137_tangent {C : Config} (hC : C.thermal = none) (hd : IntactOrBroken C) {nbs : List (List Nat)} {S : Stored}
    (hS : SetUp C nbs S) (hw : Weighted C nbs) {K mu : ℝ} {u : Nat → V3} {ghost : (Nat → ℝ) → Nat → ℝ}
    {theta : Nat → ℝ} {F : Nat → V3}
    (h : evaluate (displaced C u) .cells K mu S nbs.length (encode nbs) ghost = .ok (theta, F))
    {Th : ℝ → Nat → ℝ} {G : ℝ → Nat → V3}
    (hG : ∀ᶠ s in 𝓝 (0 : ℝ), ∃ th,
      elasticMaterial (displaced C fun k => s • u k) K mu nbs.length (encode nbs) th = .ok (Th s, G s)) :
    (∀ p < nbs.length, HasDerivAt (fun s => Th s p) (theta p) 0) ∧ ∀ k c, HasDerivAt (fun s => G s k c) (F k c) 0 := by
  have hb : ∀ b ∈ bondsOf nbs, S.m b.i ≠ 0 ∧ C.zeta b ≠ 0 := (evaluate_parts h).2.1
  obtain ⟨h1, h2⟩ := evaluate_at h
  have hbi : ∀ b ∈ bondsOf nbs, b.i < nbs.length := by
    intro b hb'
    obtain ⟨ns, h1, _⟩ := mem_bondsOf hb'
    exact (List.getElem?_eq_some_iff.1 h1).1
  constructor
  · intro p hp
    rw [h1 p hp]
    refine (theta_tangent hC hS hw hb u hp).congr_of_eventuallyEq ?_
    filter_upwards [hG] with s hs
    obtain ⟨th, hs⟩ := hs
    exact (elastic_at hs).1 p hp
  · intro k c
    have key : HasDerivAt (fun s : ℝ => ((bondsOf nbs).map fun b => pull (selfVol C) (nbrVol C) k
        (b, (tension (displaced C fun k => s • u k) K mu (theta' (displaced C fun k => s • u k) nbs) b /
          (displaced C fun k => s • u k).dY b) • (displaced C fun k => s • u k).yd b)).sum c) (F k c) 0 := by
      rw [h2 k]
      apply list_deriv_map
      intro b hb'
      apply pull_deriv
      have hm : C.m b.i = S.m b.i := by rw [weighted_eq hw (hbi b hb'), (setUp_spec hS).2 _ (hbi b hb')]
      have hz := (hb b hb').2
      have hmi := (hb b hb').1
      have ht := theta_tangent hC hS hw hb u (hbi b hb')
      have he : HasDerivAt (fun s : ℝ => (displaced C fun k => s • u k).ext b) (along C u b / C.zeta b) 0 := by
        have := ext_deriv (displaced C 0) u b (by rw [zero_dY]; exact hz)
        rw [zero_rate] at this
        simp only [displaced_eq]
        exact this
      have hT : HasDerivAt (fun s : ℝ => tension (displaced C fun k => s • u k) K mu (theta' (displaced C fun k => s • u k) nbs) b)
          ((1 - C.damage b.b) * (C.om b * dil C S nbs u b.i * (3 * K / C.m b.i - 15 * mu / C.m b.i / 3) * C.zeta b +
            (1 - C.damage b.b) * C.om b * (15 * mu / C.m b.i) * (along C u b / C.zeta b))) 0 := by
        exact ((((ht.const_mul (C.om b)).mul_const (3 * K / C.m b.i - 15 * mu / C.m b.i / 3)).mul_const (C.zeta b)).add
          (he.const_mul ((1 - C.damage b.b) * C.om b * (15 * mu / C.m b.i)))).const_mul (1 - C.damage b.b)
      have hY : HasDerivAt (fun s : ℝ => (displaced C fun k => s • u k).dY b) (along C u b / C.zeta b) 0 := by
        have hl := len_deriv (xd C b) (u b.j - u b.i) hz
        have e : ∀ s : ℝ, (displaced C fun k => s • u k).dY b = len (xd C b + s • (u b.j - u b.i)) := by
          intro s
          unfold Config.dY Config.yd displaced xd
          congr 1
          simp only
          module
        simp only [e]
        exact hl
      have hyd : HasDerivAt (fun s : ℝ => (displaced C fun k => s • u k).yd b c) ((u b.j - u b.i) c) 0 := by
        have e : ∀ s : ℝ, (displaced C fun k => s • u k).yd b c = xd C b c + s * (u b.j - u b.i) c := by
          intro s
          simp only [Config.yd, displaced, xd, Pi.sub_apply, Pi.add_apply, Pi.smul_apply, smul_eq_mul]
          ring
        simp only [e]
        simpa using ((hasDerivAt_id (0 : ℝ)).mul_const ((u b.j - u b.i) c)).const_add (xd C b c)
      have e0 : displaced C (fun k => (0 : ℝ) • u k) = displaced C 0 := by
        unfold displaced
        simp
      have hT0 : tension (displaced C 0) K mu (theta' (displaced C 0) nbs) b = 0 := by
        unfold tension
        rw [zero_ext hC, zero_theta hC]
        ring
      have hdiv := (hT.div hY (by simp only [e0, zero_dY]; exact hz)).mul hyd
      refine hdiv.congr_deriv ?_
      simp only [Pi.div_apply, e0, zero_dY, hT0, zero_yd, Pi.smul_apply, smul_eq_mul]
      rw [(setUp_spec hS).1 b hb', hm]
      rcases hd b.b with h0 | h0 <;> rw [h0] <;> field_simp <;> ring
    refine key.congr_of_eventuallyEq ?_
    filter_upwards [hG] with s hs
    obtain ⟨th, hs⟩ := hs
    show G s k c = _
    rw [(elastic_at hs).2 k]
    rfl

/-- **C137** The nonlinear material does have forces near the reference configuration. -/
theorem C137_defined {C : Config} {nbs : List (List Nat)} {S : Stored} (hS : SetUp C nbs S) (hw : Weighted C nbs)
    (hr : Ready C S nbs) (K mu : ℝ) (u : Nat → V3) : ∃ (Th : ℝ → Nat → ℝ) (G : ℝ → Nat → V3), ∀ᶠ s in 𝓝 (0 : ℝ), ∃ th,
      elasticMaterial (displaced C fun k => s • u k) K mu nbs.length (encode nbs) th = .ok (Th s, G s) := by
  have hev : ∀ᶠ s in 𝓝 (0 : ℝ), ∀ b ∈ bondsOf nbs, (displaced C fun k => s • u k).dY b ≠ 0 := by
    have hz := fun b hb => (ready_bonds hr b hb).2
    generalize bondsOf nbs = l at hz
    induction l with
    | nil => simp
    | cons b l ih =>
      have hl := (len_deriv (xd C b) (u b.j - u b.i) (hz b List.mem_cons_self)).continuousAt
      have e : ∀ s : ℝ, (displaced C fun k => s • u k).dY b = len (xd C b + s • (u b.j - u b.i)) := by
        intro s
        unfold Config.dY Config.yd displaced xd
        congr 1
        simp only
        module
      have h1 := hl.eventually_ne (y := 0) (by
        rw [zero_smul, add_zero]
        exact hz b List.mem_cons_self)
      filter_upwards [h1, ih fun b hb => hz b (List.mem_cons_of_mem _ hb)] with s h2 h3 c hc
      rcases List.mem_cons.1 hc with rfl | hc
      · rw [e]; exact h2
      · exact h3 c hc
  have hok : ∀ s : ℝ, ∃ r : (Nat → ℝ) × (Nat → V3), (∀ b ∈ bondsOf nbs, (displaced C fun k => s • u k).dY b ≠ 0) →
      elasticMaterial (displaced C fun k => s • u k) K mu nbs.length (encode nbs) 0 = .ok r := by
    intro s
    by_cases h : ∀ b ∈ bondsOf nbs, (displaced C fun k => s • u k).dY b ≠ 0
    · have hp : Proper (displaced C fun k => s • u k) nbs := by
        intro p j hpj
        obtain ⟨h1, h2⟩ := hr p j hpj
        obtain ⟨b, hb, rfl, rfl⟩ := bond_of_has hpj
        obtain ⟨ns, hp, _⟩ := hpj
        have hlt := (List.getElem?_eq_some_iff.1 hp).1
        refine ⟨?_, fun he => h b hb ?_, h2⟩
        · show C.m b.i ≠ 0
          rw [weighted_eq hw hlt, ← (setUp_spec hS).2 _ hlt]
          exact h1
        · rw [Config.dY, Config.yd, he, sub_self]
          exact len_eq_zero.2 rfl
      obtain ⟨theta, F, hF⟩ := elastic_defined hp K mu 0
      exact ⟨(theta, F), fun _ => hF⟩
    · exact ⟨(0, 0), fun h' => absurd h' h⟩
  choose r hr' using hok
  refine ⟨fun s => (r s).1, fun s => (r s).2, ?_⟩
  filter_upwards [hev] with s hs
  exact ⟨0, hr' s hs⟩

/-- Three points in a row, one bond of which is broken: the hypotheses of C137 are met, and the force is not zero. -/
example : ∃ S theta F, SetUp rowBroken rowNbs S ∧ Weighted rowBroken rowNbs ∧ IntactOrBroken rowBroken ∧ Ready rowBroken S rowNbs ∧
    evaluate (displaced rowBroken fun k => if k = 1 then ![1, 0, 0] else 0) .cells 2 1 S rowNbs.length (encode rowNbs)
      (fun t => t) = .ok (theta, F) ∧ power rowBroken F (fun k => if k = 1 then ![1, 0, 0] else 0) 3 < 0 := by
  obtain ⟨S, hS⟩ := setUp_exists rowBroken rowNbs
  have hw : Weighted rowBroken rowNbs := row_weighted
  have hr : Ready rowBroken S rowNbs := by
    intro p j hpj
    have h := row_proper (fun b => if b = 1 ∨ b = 3 then 1 else 0) p j hpj
    obtain ⟨ns, hp, _⟩ := hpj
    have hlt := (List.getElem?_eq_some_iff.1 hp).1
    refine ⟨?_, h.2.2⟩
    rw [(setUp_spec hS).2 p hlt, ← weighted_eq hw hlt]
    exact h.1
  have hd : IntactOrBroken rowBroken := by
    intro b
    unfold rowBroken
    simp only
    split
    · exact Or.inr rfl
    · exact Or.inl rfl
  have ha : Sound rowBroken 2 1 := by
    refine ⟨by norm_num, by norm_num, fun _ => one_pos, fun _ _ => zero_le_one, fun b => ?_⟩
    rcases hd b with h | h <;> rw [h] <;> norm_num
  obtain ⟨theta, F, h⟩ := C135_defined (C := displaced rowBroken fun k => if k = 1 then ![1, 0, 0] else 0) 2 1
    (S := S) (nbs := rowNbs) hr (fun t => t)
  refine ⟨S, theta, F, hS, hw, hd, hr, h, ?_⟩
  obtain ⟨h1, h2⟩ := C136_resists ha hS h row_within
  refine lt_of_le_of_ne h1 fun h0 => ?_
  have := h2.1 h0 0 [1, 2] 0 1 rfl rfl (by simp [rowBroken, bondPos]) (by simp [rowBroken, row])
  simp [rowBroken, row, _root_.dotProduct, Fin.sum_univ_three] at this

end Verif.Lps
