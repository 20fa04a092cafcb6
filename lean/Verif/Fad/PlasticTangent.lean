import Verif.Fad.PlasticLemmas

/-! Lemmas on the tangent of the elastic-plastic material: the neighborhood and the assembly. -/

noncomputable section

namespace Verif.Fad

open Verif Verif.Neigh Verif.Mech Verif.Tangent Verif.Energy Verif.Lps
open scoped Classical Topology

/-- The norm used by a step that stays of the same kind. -/
def heldStep (yv : ℝ) (norm2 : Num) (φ : ℝ → ℝ) (s : ℝ) : Option ℝ :=
  if Real.sqrt norm2.val * Real.sqrt norm2.val / 2 - yv > 0 then some (Real.sqrt (φ s)) else none

theorem plasticAd_parts {S : PlasticSolid} {gids : List Nat} {y : Nat → ℝ} {f : Nat → Num} (h : plasticAd S gids y = some f) (c : Nat) :
    (S.local gids y).m 0 ≠ 0 ∧ (∀ b ∈ bondsOf (hoodNbs (gids.length - 1)), ∃ l, bondLength (independent y) b = some l) ∧
    ∃ yv norm2, yieldValue S.const S.horizon = .ok yv ∧ Tracks c (fun s => hoodNorm S gids (bump y c s)) norm2 ∧
    ∀ k, Tracks c (fun s => plasticValue S yv gids (bump y c s) (heldStep yv norm2 (fun s => hoodNorm S gids (bump y c s)) s) k) (f k) := by
  unfold plasticAd at h
  rw [visited_temp] at h
  simp only at h
  cases hyv : yieldValue S.const S.horizon with
  | fail e => rw [hyv] at h; cases h
  | ub => rw [hyv] at h; cases h
  | ok yv =>
    rw [hyv] at h
    simp only at h
    by_cases hm : (S.local gids y).m 0 = 0
    · rw [if_pos hm] at h
      cases h
    rw [if_neg hm] at h
    obtain ⟨th, h1, h⟩ := Option.bind_eq_some_iff.1 h
    obtain ⟨norm2, h2, h⟩ := Option.bind_eq_some_iff.1 h
    obtain ⟨step, h3, h⟩ := Option.bind_eq_some_iff.1 h
    obtain ⟨F, h4, h⟩ := Option.bind_eq_some_iff.1 h
    have H := local_varies S gids y c
    obtain ⟨hb, ht⟩ := dilatation_tracks H (Tracks.const 0) h1
    have hth : Tracks c (fun s => theta' (S.local gids (bump y c s)) (hoodNbs (gids.length - 1)) 0) th := by
      refine ht.of_eq fun s => ?_
      unfold theta' bondsAt
      rw [filter_hood, zero_add]
      congr 1
      apply List.map_congr_left
      intro b' hb'
      rw [(hood_bond hb').1]
    have hN : Tracks c (fun s => hoodNorm S gids (bump y c s)) norm2 := by
      refine (normSquared_tracks H hth (Tracks.const 0) h2).of_eq fun s => ?_
      rw [zero_add]
      rfl
    refine ⟨hm, fun b hb' => (hb b hb').2, yv, norm2, rfl, hN, fun k => ?_⟩
    have hS : TracksStep c (heldStep yv norm2 fun s => hoodNorm S gids (bump y c s)) step := by
      unfold plasticStep at h3
      by_cases hf : Real.sqrt norm2.val * Real.sqrt norm2.val / 2 - yv > 0
      · rw [if_pos hf] at h3
        obtain ⟨n, hn, h3⟩ := Option.bind_eq_some_iff.1 h3
        refine .inr ⟨n, fun s => Real.sqrt (hoodNorm S gids (bump y c s)), (Option.some.inj h3).symm, ?_, hN.sqrt hn⟩
        funext s
        exact if_pos hf
      · rw [if_neg hf] at h3
        refine .inl ⟨(Option.some.inj h3).symm, ?_⟩
        funext s
        exact if_neg hf
    have := plasticForces_tracks H hth hS (G := fun _ _ => 0) (fun p k => Tracks.const 0) h4 (k / 3) ⟨k % 3, Nat.mod_lt _ (by omega)⟩
    rw [← Option.some.inj h]
    refine this.of_eq fun s => ?_
    rw [zero_add]
    rfl

theorem hoodNorm_nonneg {S : PlasticSolid} (hv : ∀ g, 0 ≤ S.v g) (gids : List Nat) (y : Nat → ℝ) : 0 ≤ hoodNorm S gids y := by
  apply List.sum_nonneg
  intro x hx
  obtain ⟨b, _, rfl⟩ := List.mem_map.1 hx
  exact mul_nonneg (sq_nonneg _) (hv _)

theorem local_dY (S : PlasticSolid) (gids : List Nat) (y : Nat → ℝ) (b : Bond) :
    (S.local gids y).dY b = (S.toSolid.hood gids y).dY b := rfl

/-- Off the yield surface the forces exist nearby, and their derivative is the one computed. -/
theorem plastic_lifts {S : PlasticSolid} (hv : ∀ g, 0 ≤ S.v g) {gids : List Nat} {y : Nat → ℝ} {f : Nat → Num}
    (h : plasticAd S gids y = some f) {yv : ℝ} (hyv : yieldValue S.const S.horizon = .ok yv) (h0 : 0 < yv)
    (hoff : hoodNorm S gids y / 2 ≠ yv) (c : Nat) (v : Nat → ℝ) : ∃ g : ℝ → Nat → ℝ,
    (∀ᶠ s in 𝓝 (0 : ℝ), plasticKernel S gids (bump y c s) v = .ok (g s)) ∧
    ∀ k, HasDerivAt (fun s => g s k) ((f k).dx c) 0 := by
  obtain ⟨hm, hb, yv', norm2, hyv', hN, hf⟩ := plasticAd_parts h c
  rw [hyv] at hyv'
  cases hyv'
  refine ⟨fun s => plasticValue S yv gids (bump y c s) (heldStep yv norm2 (fun s => hoodNorm S gids (bump y c s)) s), ?_, fun k => (hf k).2⟩
  have hev : ∀ᶠ s in 𝓝 (0 : ℝ), ∀ b ∈ bondsOf (hoodNbs (gids.length - 1)), (S.local gids (bump y c s)).dY b ≠ 0 := by
    generalize bondsOf (hoodNbs (gids.length - 1)) = l at hb
    induction l with
    | nil => simp
    | cons b l ih =>
      obtain ⟨q, hq⟩ := hb b List.mem_cons_self
      have hT := bondLength_tracks (local_varies S gids y c) hq
      have hc := hT.2.continuousAt.eventually_ne (y := 0) (by
        have := (bondLength_val (S := S.toSolid) (gids := gids) hq)
        have e : (S.local gids (bump y c 0)).dY b = q.val := hT.1
        rw [e, this.1]
        exact this.2)
      filter_upwards [hc, ih fun b hb' => hb b (List.mem_cons_of_mem _ hb')] with s h1 h2 b' hb'
      rcases List.mem_cons.1 hb' with rfl | hb'
      · exact h1
      · exact h2 b' hb'
  have e0 : bump y c 0 = y := by simp [bump]
  have hn2 : norm2.val = hoodNorm S gids y := by
    have := hN.1
    simp only [e0] at this
    exact this.symm
  have hst : ∀ᶠ s in 𝓝 (0 : ℝ), stepOf yv (hoodNorm S gids (bump y c s)) =
      heldStep yv norm2 (fun s => hoodNorm S gids (bump y c s)) s := by
    have hcont : ContinuousAt (fun s => hoodNorm S gids (bump y c s)) 0 := hN.2.continuousAt
    unfold stepOf heldStep
    rw [hn2, Real.mul_self_sqrt (hoodNorm_nonneg hv _ _)]
    rcases lt_or_gt_of_ne hoff with hlt | hgt
    · have : ∀ᶠ s in 𝓝 (0 : ℝ), hoodNorm S gids (bump y c s) < 2 * yv := by
        refine hcont.eventually_lt continuousAt_const ?_
        simp only [e0]
        linarith
      filter_upwards [this] with s hs
      rw [Real.mul_self_sqrt (hoodNorm_nonneg hv _ _), if_neg (by linarith), if_neg (by linarith)]
    · have : ∀ᶠ s in 𝓝 (0 : ℝ), 2 * yv < hoodNorm S gids (bump y c s) := by
        refine continuousAt_const.eventually_lt hcont ?_
        simp only [e0]
        linarith
      filter_upwards [this] with s hs
      rw [Real.mul_self_sqrt (hoodNorm_nonneg hv _ _), if_pos (by linarith), if_pos (by linarith)]
  filter_upwards [hev, hst] with s h1 h2
  rw [plasticKernel_ok (y := bump y c s) v hyv h0 hm h1, h2]

/-! ### Definedness -/

theorem normSquared_some {C : Config} {Y : Nat → Num3} {edp : Nat → ℝ} {alpha : ℝ} {th : Num} : ∀ {bs : List Bond} (n : Num),
    (∀ b ∈ bs, ∃ l, bondLength Y b = some l) → ∃ q, normSquared C Y edp alpha th bs n = some q
  | [], n, _ => ⟨n, rfl⟩
  | b :: bs, n, h => by
    obtain ⟨l, hl⟩ := h b List.mem_cons_self
    rw [normSquared, hl, Option.bind_eq_bind, Option.bind_some]
    exact normSquared_some _ fun b hb => h b (List.mem_cons_of_mem _ hb)

theorem plasticForces_some {C : Config} {P : PlasticConst} {Y : Nat → Num3} {edp : Nat → ℝ} {yv : ℝ} {th : Num} {step : Option Num}
    (hs : ∀ n, step = some n → n.val ≠ 0) : ∀ {bs : List Bond} (F : Nat → Num3),
    (∀ b ∈ bs, ∃ l, bondLength Y b = some l ∧ l.val ≠ 0) → ∃ R, plasticForces C P Y edp yv th step bs F = some R
  | [], F, _ => ⟨F, rfl⟩
  | b :: bs, F, h => by
    obtain ⟨l, hl, h0⟩ := h b List.mem_cons_self
    have hd : ∀ a : Num, ∃ q, a.div l = some q := fun a => ⟨_, if_neg h0⟩
    have htd : ∃ td, deviatoricForce yv (15 * P.mu / C.m b.i) step (trialExtension C edp th l b) = some td := by
      unfold deviatoricForce
      cases step with
      | none => exact ⟨_, rfl⟩
      | some n => exact ⟨_, if_neg (hs n rfl)⟩
    obtain ⟨td, htd⟩ := htd
    have hf : ∃ f, plasticPair C P Y edp yv th step b = some f := by
      unfold plasticPair
      simp only [hl, Option.bind_eq_bind, Option.bind_some, htd]
      obtain ⟨x, hx⟩ := hd ((((((th.scale (3 * P.K)).scale 1).scale (1 / C.m b.i)).scale (C.zeta b) +
        td.scale (1 - C.damage b.b)).scale (1 - C.damage b.b)) * bondVector Y b 0)
      obtain ⟨y, hy⟩ := hd ((((((th.scale (3 * P.K)).scale 1).scale (1 / C.m b.i)).scale (C.zeta b) +
        td.scale (1 - C.damage b.b)).scale (1 - C.damage b.b)) * bondVector Y b 1)
      obtain ⟨z, hz⟩ := hd ((((((th.scale (3 * P.K)).scale 1).scale (1 / C.m b.i)).scale (C.zeta b) +
        td.scale (1 - C.damage b.b)).scale (1 - C.damage b.b)) * bondVector Y b 2)
      rw [hx, Option.bind_some, hy, Option.bind_some, hz, Option.bind_some]
      exact ⟨_, rfl⟩
    obtain ⟨f, hf⟩ := hf
    rw [plasticForces, hf, Option.bind_eq_bind, Option.bind_some]
    exact plasticForces_some hs _ fun b hb => h b (List.mem_cons_of_mem _ hb)

theorem plasticAd_some {S : PlasticSolid} {gids : List Nat} {y : Nat → ℝ} {yv : ℝ} (hyv : yieldValue S.const S.horizon = .ok yv)
    (h0 : 0 < yv) (hm : (S.local gids y).m 0 ≠ 0)
    (hd : ∀ b ∈ bondsOf (hoodNbs (gids.length - 1)), (S.local gids y).dY b ≠ 0) : ∃ f, plasticAd S gids y = some f := by
  have hb : ∀ b ∈ bondsOf (hoodNbs (gids.length - 1)), ∃ l, bondLength (independent y) b = some l ∧ l.val ≠ 0 := by
    intro b hb
    obtain ⟨l, hl⟩ := bondLength_some (S := S.toSolid) (gids := gids) (hd b hb)
    exact ⟨l, hl, by rw [(bondLength_val (S := S.toSolid) (gids := gids) hl).1]; exact hd b hb⟩
  have hb' : ∀ b ∈ bondsOf (hoodNbs (gids.length - 1)), ∃ l, bondLength (independent y) b = some l :=
    fun b hb' => (hb b hb').imp fun _ h => h.1
  unfold plasticAd
  rw [visited_temp, hyv]
  simp only
  rw [if_neg hm]
  obtain ⟨th, ht⟩ := dilatation_some (C := S.local gids y) (Y := independent y) (bs := bondsOf (hoodNbs (gids.length - 1))) (Num.const 0)
    (fun b h => ⟨by rw [(hood_bond h).1]; exact hm, hb' b h⟩)
  rw [ht, Option.bind_eq_bind, Option.bind_some]
  obtain ⟨n2, hn⟩ := normSquared_some (C := S.local gids y) (edp := S.edp (gids.getD 0 0)) (alpha := 15 * S.mu / (S.local gids y).m 0)
    (th := th) (Num.const 0) hb'
  rw [hn, Option.bind_eq_bind, Option.bind_some]
  obtain ⟨step, hst, hs⟩ : ∃ step, plasticStep yv n2 = some step ∧ ∀ n, step = some n → n.val ≠ 0 := by
    unfold plasticStep
    split
    · next hf =>
      have h1 : Real.sqrt n2.val ≠ 0 := by
        intro h
        rw [h] at hf
        linarith
      have h2 : n2.val ≠ 0 := by
        intro h
        rw [h, Real.sqrt_zero] at h1
        exact h1 rfl
      have e : n2.sqrt = some ⟨Real.sqrt n2.val, fun k => n2.dx k / (2 * Real.sqrt n2.val)⟩ := if_neg h2
      refine ⟨some ⟨Real.sqrt n2.val, fun k => n2.dx k / (2 * Real.sqrt n2.val)⟩, by rw [e]; rfl, ?_⟩
      rintro n hn
      cases hn
      exact h1
    · exact ⟨none, rfl, fun n h => by cases h⟩
  rw [hst, Option.bind_some]
  obtain ⟨F, hF⟩ := plasticForces_some (C := S.local gids y) (P := S.const) (edp := S.edp (gids.getD 0 0)) (yv := yv) (th := th) hs
    (fun _ _ => Num.const 0) hb
  rw [hF, Option.bind_eq_bind, Option.bind_some]
  exact ⟨_, rfl⟩

theorem plasticAd_sound {S : PlasticSolid} {Y : Nat → ℝ} {gids : List Nat} (h0 : 1 < gids.length) {yv : ℝ}
    (hyv : yieldValue S.const S.horizon = .ok yv) (hpos : 0 < yv) :
    (∃ f, plasticAd S gids (gather 3 gids Y) = some f) ↔ S.toSolid.Sound Y gids := by
  rw [sound_iff (by omega)]
  constructor
  · rintro ⟨f, hf⟩ b hb
    obtain ⟨hm, hl, _⟩ := plasticAd_parts hf 0
    obtain ⟨l, hl⟩ := hl b hb
    exact ⟨by rw [(hood_bond hb).1]; exact hm, (bondLength_val hl).2⟩
  · intro h
    refine plasticAd_some hyv hpos ?_ fun b hb => (h b hb).2
    have hb : HasBond (hoodNbs (gids.length - 1)) 0 1 := ⟨_, rfl, List.mem_map.2 ⟨0, List.mem_range.2 (by omega), rfl⟩⟩
    obtain ⟨b, hb, hi, _⟩ := bond_of_has hb
    have := (h b hb).1
    rw [hi] at this
    exact this

/-! ### Specification -/

theorem yieldLimit_ok {S : PlasticSolid} (hS : S.Ductile) : yieldValue S.const S.horizon = .ok S.yieldLimit ∧ 0 < S.yieldLimit := by
  have hh := hS.horizon
  have hy : 0 < S.yieldStress ^ 2 := by have := hS.yieldStress; positivity
  have hpi := Real.pi_pos
  unfold yieldValue PlasticSolid.yieldLimit
  rw [show S.const.planar = S.planar from rfl, show S.const.yieldStress = S.yieldStress from rfl]
  cases hp : S.planar with
  | none =>
    simp only
    rw [if_neg (by positivity)]
    refine ⟨?_, by positivity⟩
    congr 1
    field_simp
  | some t =>
    have ht := hS.planar t hp
    simp only
    rw [if_neg (by rintro (h | h) <;> [linarith; exact absurd h (by positivity)])]
    refine ⟨?_, by positivity⟩
    congr 1
    field_simp
    ring

theorem trial_eq {S : PlasticSolid} {gids : List Nat} (h0 : 0 < gids.length) (Y : Nat → ℝ) :
    hoodNorm S gids (gather 3 gids Y) = S.trial Y gids := by
  have hz : ∀ t, (S.local gids (gather 3 gids Y)).zeta ⟨0, t + 1, t⟩ = S.bondRef gids t := fun t => rfl
  have hy : ∀ t < gids.length - 1, (S.local gids (gather 3 gids Y)).dY ⟨0, t + 1, t⟩ =
      len (comp Y (gids.getD (t + 1) 0) - comp Y (gids.getD 0 0)) := by
    intro t ht
    rw [← comp_gather (i := t + 1) (by omega), ← comp_gather h0]
    rfl
  have hth : theta' (S.local gids (gather 3 gids Y)) (hoodNbs (gids.length - 1)) 0 = S.dilat Y gids := by
    unfold theta' bondsAt PlasticSolid.dilat
    rw [filter_hood, hood_bonds, List.map_map, sum_range_list]
    apply Finset.sum_congr rfl
    intro t ht
    have ht := Finset.mem_range.1 ht
    simp only [Function.comp]
    have he : (S.local gids (gather 3 gids Y)).ext ⟨0, t + 1, t⟩ = S.bondExt Y gids t := by
      show (S.local gids (gather 3 gids Y)).dY ⟨0, t + 1, t⟩ - (S.local gids (gather 3 gids Y)).zeta ⟨0, t + 1, t⟩ = _
      rw [hy t ht, hz]
      rfl
    rw [he, hz]
    unfold kap
    show 3 * ((1 - S.damage (gids.getD 0 0) t) * S.omega (S.bondRef gids t) S.horizon * S.v (gids.getD (t + 1) 0)) * _ * _ / S.m (gids.getD 0 0) = _
    ring
  unfold hoodNorm normOf PlasticSolid.trial
  rw [hth, hood_bonds, List.map_map, sum_range_list]
  apply Finset.sum_congr rfl
  intro t ht
  have ht := Finset.mem_range.1 ht
  simp only [Function.comp]
  unfold trialOf
  rw [hy t ht, hz]
  rfl

/-! ### Assembly -/

/-- The entry of one neighborhood is the derivative of the force it exerts, for every kernel whose derivative is computed. -/
theorem entry_derivative {K : Kernel} {A : AdKernel} {F : Fields} {h : List Nat} (hn : h.Nodup) {f : Nat → Num}
    (hf : A h (gather 3 h F.y) = some f)
    (hl : ∀ c, ∃ g : ℝ → Nat → ℝ, (∀ᶠ s in 𝓝 (0 : ℝ), K h (bump (gather 3 h F.y) c s) (gather 3 h F.v) = .ok (g s)) ∧
      ∀ k, HasDerivAt (fun s => g s k) ((f k).dx c) 0) (R C : Nat) :
    (∀ᶠ s in 𝓝 (0 : ℝ), ∃ g, K h (gather 3 h (bump F.y C s)) (gather 3 h F.v) = .ok g) ∧
    HasDerivAt (fun s => F.vol (R / 3) * hoodForce K (bump F.y C s) F.v h R) (adEntry A F h R C) 0 := by
  by_cases hC : C / 3 ∈ h
  · obtain ⟨g, h1, h2⟩ := hl (slot 3 h C)
    have hev : ∀ᶠ s in 𝓝 (0 : ℝ), K h (gather 3 h (bump F.y C s)) (gather 3 h F.v) = .ok (g s) := by
      filter_upwards [h1] with s hs
      rw [gather_bump_in (by omega) hn hC]
      exact hs
    refine ⟨by filter_upwards [hev] with s hs; exact ⟨_, hs⟩, ?_⟩
    unfold adEntry hoodForce
    by_cases hR : R / 3 ∈ h
    · rw [if_pos ⟨hR, hC⟩, hf]
      have := (h2 (slot 3 h R)).const_mul (F.vol (R / 3))
      rw [mul_comm] at this
      refine this.congr_of_eventuallyEq ?_
      filter_upwards [hev] with s hs
      rw [hs]
      simp only [spread, if_pos hR, out]
      rfl
    · rw [if_neg fun h => hR h.1]
      simp only [spread, if_neg hR]
      exact hasDerivAt_const _ _
  · have e : ∀ s, gather 3 h (bump F.y C s) = gather 3 h F.y := fun s => gather_bump_out (by omega) hC _ _
    obtain ⟨g, h1, _⟩ := hl 0
    have h0 := h1.self_of_nhds
    have eb : bump (gather 3 h F.y) 0 0 = gather 3 h F.y := by simp [bump]
    rw [eb] at h0
    refine ⟨Filter.Eventually.of_forall fun s => ⟨_, by rw [e]; exact h0⟩, ?_⟩
    unfold adEntry hoodForce
    rw [if_neg fun h => hC h.2]
    simp only [e]
    exact hasDerivAt_const _ _

theorem bind_congr_ok {α β : Type} {x x' : Outcome α} (h : ∀ a, x = .ok a ↔ x' = .ok a) {f f' : α → Outcome β}
    (hf : ∀ a b, f a = .ok b ↔ f' a = .ok b) (b : β) : (x >>= f) = .ok b ↔ (x' >>= f') = .ok b := by
  rw [Outcome.bind_eq_ok, Outcome.bind_eq_ok]
  constructor
  · rintro ⟨a, h1, h2⟩
    exact ⟨a, (h a).1 h1, (hf a b).1 h2⟩
  · rintro ⟨a, h1, h2⟩
    exact ⟨a, (h a).2 h1, (hf a b).2 h2⟩

theorem plasticLocal_iff {A : AdKernel} {F : Fields} {gids : List Nat} {S : Scratch} (r : Scratch × (Nat → Nat → ℝ)) :
    plasticLocal A F gids S = .ok r ↔ adLocal A F gids S = .ok r := by
  unfold plasticLocal adLocal
  refine bind_congr_ok (fun _ => Iff.rfl) (fun _ b => ?_) r
  cases A gids (gather 3 gids F.y) with
  | none => simp
  | some f => exact Iff.rfl

theorem plasticTangent_iff {A : AdKernel} {F : Fields} {S : Scratch} : ∀ {prs : List Proc} {M M' : Sparse},
    plasticTangent A F S prs M = .ok M' ↔ adTangent .full A F S prs M = .ok M'
  | [], M, M' => Iff.rfl
  | pr :: prs, M, M' => by
    unfold plasticTangent adTangent
    refine bind_congr_ok (fun M1 => ?_) (fun M1 b => plasticTangent_iff) M'
    unfold plasticOne adOne
    refine bind_congr_ok (fun _ => Iff.rfl) (fun hs b => ?_) M1
    refine bind_congr_ok (fun s => ?_) (fun _ _ => Iff.rfl) b
    generalize (S, M) = s0
    induction hs generalizing s s0 with
    | nil => exact Iff.rfl
    | cons g hs ih =>
      rw [List.foldlM_cons, List.foldlM_cons]
      refine bind_congr_ok (fun s1 => ?_) (fun s1 s' => ?_) s
      · unfold plasticPoint adPoint
        exact bind_congr_ok plasticLocal_iff (fun _ _ => Iff.rfl) s1
      · exact ih _ s1

end Verif.Fad
