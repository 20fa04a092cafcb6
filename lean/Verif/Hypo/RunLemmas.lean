import Verif.Hypo.Lemmas

/-!
# Hypoelastic correspondence material: affine velocities, both copies of a bond, work, definedness
-/

noncomputable section

namespace Verif.Hypo

open Verif Verif.Neigh Verif.Mech Verif.Tensor Matrix
open Verif.Assoc (Body Decompose Weights storeAll influenceOf gradientAt bondGradient lenSq integralBond
  forceBond Current storeAll_get WellPlaced Partners Paired gradOf bondOf bondMeasure xi lenSq_eq paired_of_bonds)
open Verif.Correspondence (bondsAt mem_bondsAt unrotated_eq rotateStress toMatrix_mm toMatrix_mmT)
open scoped Classical

/-! ### Affine velocities -/

theorem affine_pre {B : Block} {D : Decompose} (hD : D.Correct) {order : Nat} {dt : ℝ} {H : Harm} {J : Nat → ℝ}
    {y v : Nat → V3} {g : Ghosts} {nbs : List (List Nat)} {P : Pre}
    (hp : PreParts (current B J y) D order dt H J v nbs.length (bondsOf nbs) g P) (hN : Within nbs nbs.length)
    (hf : ∀ p, H.flag p < 0) (hh : 0 < B.horizon) (hw : ∀ p < nbs.length, WellPlaced (current B J y) order H.bondDamage nbs p)
    {A : Matrix (Fin 3) (Fin 3) ℝ} {a : V3} (hv : ∀ k, v k = A *ᵥ y k + a) :
    (∀ p < nbs.length, (P.grad p).toMatrix = A) ∧
    ∀ b ∈ bondsOf nbs, (bondGradient (current B J y) P.grad v b).toMatrix = A := by
  have e1 : ∀ p < nbs.length, (P.grad p).toMatrix = A := by
    intro p hlt
    have hfp : H.flag p < 1 / 2 := (hf p).trans (by norm_num)
    rw [hp.grad, if_pos hlt, if_pos hfp, Verif.Assoc.gradient_exact hD hp.positive hlt (hp.current p hlt hfp) hh (hw p hlt)
      (Z := Verif.Assoc.affine A a) (fun c => (Verif.Assoc.affine_degree _ _ c).trans
        (by have := hp.positive; omega)) (fun q _ c => by rw [Verif.Assoc.affine_eval, hv]; rfl), toMatrix_zero,
      Verif.Assoc.affine_gradient, zero_add]
  refine ⟨e1, fun b hb => ?_⟩
  obtain ⟨hi, hj⟩ := bonds_within hN b hb
  rw [Verif.Assoc.bondGradient_bondOf, Verif.Assoc.bondOf_congr _ (G' := fun _ => A) v (e1 _ hi) (e1 _ hj)]
  exact Verif.Assoc.bondOf_affine _ A v (by rw [hv, hv, xi, mulVec_sub]; show _ = A *ᵥ y b.j - A *ᵥ y b.i; abel)

/-! ### Both copies of a bond -/

/-- Both copies of each bond have the same state. -/
structure PairedState {α β : Type} (nbs : List (List Nat)) (s : State α β) : Prop where
  now : Paired nbs s.now.bonds
  found : Paired nbs s.found.bonds
  extra : Paired nbs s.bondExtra

theorem paired_step {α β : Type} {B : Block} {D : Decompose} {order : Nat} {M : Material α β} {dt : ℝ} {H : Harm} {y v : Nat → V3}
    {g : Ghosts} {s : State α β} {nbs : List (List Nat)} {r : Result α β} (hf : ∀ p, H.flag p < 0) (hps : PairedState nbs s)
    (h : evaluation B D order M dt H y v g s nbs.length (encode nbs) = .ok r) :
    Paired nbs r.bondGrad ∧ Paired nbs r.arrays.bonds ∧ Paired nbs r.bondExtra := by
  have hp := (evaluation_parts h).2
  have hg : ∀ b b', Partners nbs b b' → r.bondGrad b'.b = r.bondGrad b.b := by
    intro b b' hb
    rw [hp.bondGrad _ hb.1 (hf _), hp.bondGrad _ hb.2.1 (hf _), Verif.Assoc.bondGradient_swap _ _ _ hb.2.2.1 hb.2.2.2]
  have hs : ∀ b b', Partners nbs b b' → (r.arrays.bonds b'.b, r.bondExtra b'.b) = (r.arrays.bonds b.b, r.bondExtra b.b) := by
    intro b b' hb
    have e1 := hp.bond _ hb.1 (hf _)
    have e2 := hp.bond _ hb.2.1 (hf _)
    rw [hg b b' hb, hps.now.bonds hb, hps.extra.bonds hb, e1] at e2
    injection e2 with e2
    exact e2.symm
  exact ⟨paired_of_bonds hg, paired_of_bonds fun b b' hb => congrArg Prod.fst (hs b b' hb),
    paired_of_bonds fun b b' hb => congrArg Prod.snd (hs b b' hb)⟩

theorem paired_run {α β : Type} {B : Block} {D : Decompose} {order : Nat} {M : Material α β} {a : α} {o : β}
    {nbs : List (List Nat)} {s : State α β} (h : Run B D order M a o nbs (Grounded nbs) s) : PairedState nbs s := by
  induction h with
  | start => exact ⟨fun _ _ _ _ _ _ _ _ _ _ => rfl, fun _ _ _ _ _ _ _ _ _ _ => rfl, fun _ _ _ _ _ _ _ _ _ _ => rfl⟩
  | step _ hH h ih =>
    obtain ⟨-, a2, a3⟩ := paired_step hH.flag ih h
    exact ⟨a2, ih.now, a3⟩
  | again _ hH h ih =>
    obtain ⟨-, a2, a3⟩ := paired_step hH.flag ih h
    exact ⟨ih.now, a2, a3⟩

/-! ### Work -/

/-- Forces with the Jacobian determinants of both ends are those without, times the determinant of the point. -/
theorem scatter_scaled {J : Nat → ℝ} {vi vj : Bond → ℝ} {f : Bond → Outcome V3} (bs : List Bond) {F G : Nat → V3} {R : Nat → V3}
    (hF : ∀ p, F p = J p • G p) (h : scatter (fun b => J b.j * vi b) (fun b => J b.i * vj b) f bs F = .ok R) :
    ∃ R', scatter vi vj f bs G = .ok R' ∧ ∀ p, R p = J p • R' p := by
  induction bs generalizing F G with
  | nil =>
    rw [scatter] at h
    cases h
    exact ⟨G, by rw [scatter], hF⟩
  | cons b bs ih =>
    rw [scatter] at h
    cases hx : f b with
    | ok x =>
      rw [hx] at h
      obtain ⟨R', h5, h6⟩ := ih (G := scatterStep vi vj G b x) (by
        intro p
        simp only [scatterStep]
        have e : ∀ q, Function.update F b.i (fun c => F b.i c + x c * (J b.i * vj b)) q =
            J q • Function.update G b.i (fun c => G b.i c + x c * vj b) q := by
          intro q
          by_cases hq : q = b.i
          · subst hq
            rw [Function.update_self, Function.update_self, hF]
            funext c
            simp only [Pi.smul_apply, smul_eq_mul]
            ring
          · rw [Function.update_of_ne hq, Function.update_of_ne hq, hF]
        by_cases hp : p = b.j
        · subst hp
          rw [Function.update_self, Function.update_self, e]
          funext c
          simp only [Pi.smul_apply, smul_eq_mul]
          ring
        · rw [Function.update_of_ne hp, Function.update_of_ne hp, e]) h
      exact ⟨R', by rw [scatter, hx]; exact h5, h6⟩
    | fail e => rw [hx] at h; cases h
    | ub => rw [hx] at h; cases h

theorem liveBonds_all {H : Harm} (hf : ∀ p, H.flag p < 0) (bonds : List Bond) : liveBonds H bonds = bonds := by
  unfold liveBonds
  rw [List.filter_eq_self]
  intro b _
  simpa using hf b.i

theorem livePoints_all {H : Harm} (hf : ∀ p, H.flag p < 0) (n : Nat) : livePoints H n = List.range n := by
  unfold livePoints
  rw [List.filter_eq_self]
  intro b _
  simpa using hf b

/-- The work identity in a run without flying points. -/
theorem work_run {α β : Type} {B : Block} {D : Decompose} {order : Nat} {M : Material α β} {a : α} {o : β}
    {nbs : List (List Nat)} (hB : Whole B nbs) {s : State α β} (hrun : Run B D order M a o nbs (Grounded nbs) s) {dt : ℝ} {H : Harm}
    (hH : Grounded nbs H) {y v : Nat → V3} {g : Ghosts} {r : Result α β}
    (h : evaluation B D order M dt H y v g s nbs.length (encode nbs) = .ok r) (z : Nat → V3) :
    ∑ k ∈ Finset.range nbs.length, B.volume k • vecMulVec (z k) (r.force k) =
      - ((bondsOf nbs).map fun b => bondMeasure (current B s.jacobian y) r.pre.w0 r.pre.weights.omega b •
        (bondOf (current B s.jacobian y) (gradOf (current B s.jacobian y) r.pre.weights.phi z (bondsOf nbs)) z b *
          (r.bondCauchy b.b).toMatrixᵀ)).sum := by
  obtain ⟨hpre, hp⟩ := evaluation_parts h
  have hi := hp.integral
  have hfo := hp.force
  rw [liveBonds_all hH.flag] at hfo
  rw [livePoints_all hH.flag] at hi
  obtain ⟨G, hG, e⟩ := scatter_scaled (J := s.jacobian) (vi := fun b => (current B s.jacobian y).volume b.i)
    (vj := fun b => (current B s.jacobian y).volume b.j) _ (G := 0) (fun p => by simp) hfo
  obtain ⟨-, a2, -⟩ := paired_step hH.flag (paired_run hrun) h
  have hw := Verif.Assoc.work_of hi hG hB.both hB.within
    (fun b hb => by
      rw [hpre.omega b hb]
      exact mul_nonneg (hB.influence _ _) (sub_nonneg.mpr (hH.le_one _)))
    (fun b hb h0 => by
      have hlt := (bonds_within hB.within b hb).1
      have hc := (hpre.current b.i hlt ((hH.flag _).trans (by norm_num))) b (List.mem_filter.mpr ⟨hb, by simp⟩)
      rw [hpre.omega b hb] at h0
      rw [hc.2]
      funext c
      rw [Verif.Assoc.phi_eq hpre.positive rfl, h0]
      simp)
    (fun b hb b' hb' h1 h2 => by
      rw [hpre.omega b hb, hpre.omega b' hb']
      exact Verif.Assoc.influence_swap (fun _ _ _ => rfl) hH.paired ⟨hb, hb', h1, h2⟩)
    (fun b hb b' hb' h1 h2 _ => by
      rw [hp.bondCauchy, hp.bondCauchy, a2.bonds ⟨hb, hb', h1, h2⟩]) z
  rw [← hw]
  refine Finset.sum_congr rfl fun k _ => ?_
  rw [e k, vecMulVec_smul, smul_smul]
  show _ = (s.jacobian k * B.volume k) • _
  rw [mul_comm]

/-! ### Definedness -/

theorem undamagedVolume_eq (C : Body) (bs : List Bond) :
    undamagedVolume C bs = (bs.map fun b => C.influence (len (xi C b)) (C.horizon b.i) * C.volume b.j).sum := by
  have hs : ∀ (l : List Bond) (t : ℝ), l.foldl (fun t b => t + C.influence (len (xi C b)) (C.horizon b.i) * C.volume b.j) t =
      t + (l.map fun b => C.influence (len (xi C b)) (C.horizon b.i) * C.volume b.j).sum := by
    intro l
    induction l with
    | nil => intro t; simp
    | cons b l ih => intro t; rw [List.foldl_cons, ih, List.map_cons, List.sum_cons, add_assoc]
  unfold undamagedVolume
  rw [hs, zero_add]

theorem damagedVolume_eq (C : Body) (d : Nat → ℝ) (bs : List Bond) : damagedVolume C d bs =
    (bs.map fun b => (1 - d b.b) * C.influence (len (xi C b)) (C.horizon b.i) * C.volume b.j).sum := by
  have hs : ∀ (l : List Bond) (t : ℝ), l.foldl (fun t b => t + (1 - d b.b) * C.influence (len (xi C b)) (C.horizon b.i) *
      C.volume b.j) t = t + (l.map fun b => (1 - d b.b) * C.influence (len (xi C b)) (C.horizon b.i) * C.volume b.j).sum := by
    intro l
    induction l with
    | nil => intro t; simp
    | cons b l ih => intro t; rw [List.foldl_cons, ih, List.map_cons, List.sum_cons, add_assoc]
  unfold damagedVolume
  rw [hs, zero_add]

theorem length_ne {C : Body} {b : Bond} (h : C.x b.i ≠ C.x b.j) : lenSq (xi C b) ≠ 0 := by
  rw [lenSq_eq]
  intro h0
  exact h (sub_eq_zero.mp (dotProduct_self_eq_zero.mp h0)).symm

theorem evaluation_defined {α β : Type} {B : Block} {D : Decompose} {order : Nat} (ho : order ≠ 0) (hh : B.horizon ≠ 0) {M : Material α β}
    (hn : ∀ dt D s a o, ∃ r, M.node dt D s a o = .ok r) (hb : ∀ dt D s a o, ∃ r, M.bond dt D s a o = .ok r)
    (dt : ℝ) (H : Harm) (y v : Nat → V3) (g : Ghosts) (s : State α β) {nbs : List (List Nat)} :
    ∃ P, precompute (current B s.jacobian y) D order dt H s.jacobian v nbs.length (bondsOf nbs) g = .ok P ∧
      ((∀ b ∈ bondsOf nbs, H.flag b.i < 0 → y b.i ≠ y b.j ∧ (0 < P.weights.omega b.b → P.w0 b.i ≠ 0 ∧ P.w0 b.j ≠ 0)) →
       ∃ r, evaluation B D order M dt H y v g s nbs.length (encode nbs) = .ok r) := by
  obtain ⟨P, hP⟩ := precompute_defined (C := current B s.jacobian y) (D := D) ho dt (H := H) s.jacobian v (n := nbs.length)
    (bondsOf nbs) g fun _ _ => hh
  refine ⟨P, hP, fun hbd => ?_⟩
  unfold evaluation
  rw [visited_encode, Outcome.ok_bind, hP, Outcome.ok_bind, computeForce, if_neg (by
    rw [Bool.not_eq_true, List.any_eq_false]
    intro b hbm
    obtain ⟨h1, h2⟩ := mem_live.mp hbm
    simpa using length_ne (C := current B s.jacobian y) (hbd b h1 h2).1)]
  obtain ⟨nodes, h1⟩ := advanceAll_defined hn dt s.now.nodes ((livePoints H nbs.length).map fun p => (p, P.grad p))
    (s.found.nodes, s.nodeExtra)
  obtain ⟨bs, h2⟩ := advanceAll_defined hb dt s.now.bonds ((liveBonds H (bondsOf nbs)).map fun b =>
    (b.b, storeAll (bondGradient (current B s.jacobian y) P.grad v) (liveBonds H (bondsOf nbs)) (fun _ => zero) b.b))
    (s.found.bonds, s.bondExtra)
  simp only
  rw [h1, Outcome.ok_bind, h2, Outcome.ok_bind]
  generalize (fun k => rotateStress (bs.1 k).rotation (bs.1 k).stress) = sigma
  have hint : ∀ (l : List Bond) (t : M9), (∀ b ∈ l, b ∈ bondsOf nbs ∧ H.flag b.i < 0) →
      ∃ t', l.foldlM (integralBond (current B s.jacobian y) P.w0 P.weights.omega sigma) t = .ok t' := by
    intro l
    induction l with
    | nil => intro t _; exact ⟨t, rfl⟩
    | cons b l ih =>
      intro t hl
      obtain ⟨hbm, hfb⟩ := hl b List.mem_cons_self
      obtain ⟨q1, q2⟩ := hbd b hbm hfb
      have : ∃ t1, integralBond (current B s.jacobian y) P.w0 P.weights.omega sigma t b = .ok t1 := by
        unfold integralBond
        split
        · next hom =>
          rw [if_neg (by
            push Not
            exact ⟨(q2 hom).1, (q2 hom).2, length_ne (C := current B s.jacobian y) q1⟩)]
          exact ⟨_, rfl⟩
        · exact ⟨_, rfl⟩
      obtain ⟨t1, h3⟩ := this
      rw [List.foldlM_cons, h3, Outcome.ok_bind]
      exact ih t1 fun c hc => hl c (List.mem_cons_of_mem _ hc)
  have hints : ∀ (ps : List Nat) (S : Nat → M9), (∀ p ∈ ps, H.flag p < 0) → ∃ S', ps.foldlM (fun S p => do
      let t ← (bondsAt (bondsOf nbs) p).foldlM (integralBond (current B s.jacobian y) P.w0 P.weights.omega sigma) zero
      .ok (Function.update S p t)) S = .ok S' := by
    intro ps
    induction ps with
    | nil => intro S _; exact ⟨S, rfl⟩
    | cons p ps ih =>
      intro S hps
      obtain ⟨t, ht⟩ := hint (bondsAt (bondsOf nbs) p) zero fun b hb => by
        have h4 := (mem_bondsAt hb).1
        exact ⟨(List.mem_filter.mp hb).1, h4 ▸ hps p List.mem_cons_self⟩
      rw [List.foldlM_cons, ht, Outcome.ok_bind, Outcome.ok_bind]
      exact ih _ fun q hq => hps q (List.mem_cons_of_mem _ hq)
  obtain ⟨S, hS⟩ := hints (livePoints H nbs.length) (fun _ => zero) fun p hp => (mem_livePoints.mp hp).2
  rw [integral, hS, Outcome.ok_bind]
  have hsc : ∀ (l : List Bond) (F : Nat → V3), (∀ b ∈ l, b ∈ bondsOf nbs ∧ H.flag b.i < 0) → ∃ F',
      scatter (fun b => s.jacobian b.j * (current B s.jacobian y).volume b.i)
        (fun b => s.jacobian b.i * (current B s.jacobian y).volume b.j)
        (forceBond (current B s.jacobian y) P.w0 P.weights sigma S) l F = .ok F' := by
    intro l
    induction l with
    | nil => intro F _; exact ⟨F, by rw [scatter]⟩
    | cons b l ih =>
      intro F hl
      obtain ⟨hbm, hfb⟩ := hl b List.mem_cons_self
      obtain ⟨q1, q2⟩ := hbd b hbm hfb
      have : ∃ x, forceBond (current B s.jacobian y) P.w0 P.weights sigma S b = .ok x := by
        unfold forceBond
        split
        · next hom =>
          rw [if_neg (by
            push Not
            exact ⟨(q2 hom).1, length_ne (C := current B s.jacobian y) q1⟩)]
          exact ⟨_, rfl⟩
        · exact ⟨_, rfl⟩
      obtain ⟨x, hx⟩ := this
      rw [scatter, hx]
      exact ih _ fun c hc => hl c (List.mem_cons_of_mem _ hc)
  obtain ⟨F, hF⟩ := hsc (liveBonds H (bondsOf nbs)) 0 fun b hb => mem_live.mp hb
  rw [hF, Outcome.ok_bind]
  exact ⟨_, rfl⟩

end Verif.Hypo
