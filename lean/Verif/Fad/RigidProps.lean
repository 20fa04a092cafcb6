import Verif.Fad.FlowProps

/-! # Property theorems: rigid motions and the tangent of the elastic-plastic material (C225) -/

noncomputable section

namespace Verif.Fad

open Verif Verif.Neigh Verif.Mech Verif.Tangent Verif.Energy Verif.Lps
open scoped Classical Topology Matrix

variable {C : Config} {P : PlasticConst} {edp : Nat → ℝ} {yv th : ℝ} {norm : Option ℝ} {nbs : List (List Nat)}

theorem rate_lin (a : ℝ) (d e : Nat → V3) (b : Bond) : rate C (fun p => a • d p + e p) b = a * rate C d b + rate C e b := by
  unfold rate
  rw [show a • d b.j + e b.j - (a • d b.i + e b.i) = a • (d b.j - d b.i) + (e b.j - e b.i) by
    rw [smul_sub]; abel, dotProduct_add, dotProduct_smul, smul_eq_mul]
  ring

theorem thetaRate_lin (a : ℝ) (d e : Nat → V3) (p : Nat) :
    thetaRate C nbs (fun p => a • d p + e p) p = a * thetaRate C nbs d p + thetaRate C nbs e p := by
  unfold thetaRate
  rw [← List.sum_map_mul_left, ← List.sum_map_add]
  congr 1
  apply List.map_congr_left
  intro b _
  rw [rate_lin]
  ring

theorem trialRate_lin (a : ℝ) (d e : Nat → V3) (b : Bond) :
    trialRate C nbs (fun p => a • d p + e p) b = a * trialRate C nbs d b + trialRate C nbs e b := by
  unfold trialRate
  rw [rate_lin, thetaRate_lin]
  ring

theorem normRate_lin (alpha a : ℝ) (d e : Nat → V3) : normRate C edp alpha th nbs (fun p => a • d p + e p) =
    a * normRate C edp alpha th nbs d + normRate C edp alpha th nbs e := by
  unfold normRate
  rw [← List.sum_map_mul_left, ← List.sum_map_add]
  congr 1
  apply List.map_congr_left
  intro b _
  rw [trialRate_lin]
  ring

theorem plasticForceRate_lin (a : ℝ) (d e : Nat → V3) (b : Bond) :
    plasticForceRate C P edp yv th norm nbs (fun p => a • d p + e p) b =
      a • plasticForceRate C P edp yv th norm nbs d b + plasticForceRate C P edp yv th norm nbs e b := by
  have ht : plasticTensionRate C P edp yv th norm nbs (fun p => a • d p + e p) b =
      a * plasticTensionRate C P edp yv th norm nbs d b + plasticTensionRate C P edp yv th norm nbs e b := by
    unfold plasticTensionRate
    rw [thetaRate_lin, trialRate_lin, normRate_lin]
    cases norm with
    | none => simp only [tdRate]; ring
    | some q => simp only [tdRate]; ring
  unfold plasticForceRate
  rw [ht, rate_lin]
  funext c
  simp only [Pi.add_apply, Pi.smul_apply, Pi.sub_apply, smul_eq_mul]
  ring

theorem plasticForm_lin (w : Nat → V3) (a : ℝ) (d e : Nat → V3) :
    plasticForm C P edp yv norm nbs w (fun p => a • d p + e p) =
      a * plasticForm C P edp yv norm nbs w d + plasticForm C P edp yv norm nbs w e := by
  unfold plasticForm
  rw [mul_neg, ← List.sum_map_mul_left, ← neg_add, ← List.sum_map_add]
  congr 2
  apply List.map_congr_left
  intro b _
  rw [plasticForceRate_lin, dotProduct_add, dotProduct_smul, smul_eq_mul]
  ring

theorem plasticForm_sum {ι : Type} (s : Finset ι) (a : ι → ℝ) (D : ι → Nat → V3) (w : Nat → V3) :
    plasticForm C P edp yv norm nbs w (fun p => ∑ q ∈ s, a q • D q p) = ∑ q ∈ s, a q * plasticForm C P edp yv norm nbs w (D q) := by
  induction s using Finset.induction_on with
  | empty =>
    simp only [Finset.sum_empty]
    unfold plasticForm
    rw [neg_eq_zero]
    apply List.sum_eq_zero
    intro x hx
    obtain ⟨b, hb, rfl⟩ := List.mem_map.1 hx
    rw [plasticForceRate_zero (fun _ _ => rfl) hb]
    simp
  | insert q s hq ih =>
    simp only [Finset.sum_insert hq]
    rw [plasticForm_lin, ih]

theorem plasticForm_congr {w d d' : Nat → V3} (h : ∀ b ∈ bondsOf nbs, d b.i = d' b.i ∧ d b.j = d' b.j) :
    plasticForm C P edp yv norm nbs w d = plasticForm C P edp yv norm nbs w d' := by
  unfold plasticForm
  congr 2
  apply List.map_congr_left
  intro b hb
  rw [plasticForceRate_congr h hb]

theorem plasticHood_sum {E : PlasticSolid} {Y : Nat → ℝ} {h : List Nat} (h0 : 0 < h.length) {N : Nat} (hN : ∀ g ∈ h, g < N) (w u : Nat → V3) :
    ∑ q ∈ comps N, plasticHood E Y h w (single (3 * q.1 + q.2)) * u q.1 q.2 = plasticHood E Y h w u := by
  have e : ∀ q ∈ comps N, plasticHood E Y h w (single (3 * q.1 + q.2)) * u q.1 q.2 =
      u q.1 q.2 * plasticHood E Y h w (single (3 * q.1 + q.2)) := fun q _ => mul_comm _ _
  rw [Finset.sum_congr rfl e]
  unfold plasticHood
  rw [← plasticForm_sum (comps N) (fun q => u q.1 q.2) (fun q => pulled h (single (3 * q.1 + q.2)))]
  apply plasticForm_congr
  intro b hb
  obtain ⟨h1, h2⟩ := bond_lt h0 hb
  have key : ∀ p < h.length, ∑ q ∈ comps N, u q.1 q.2 • pulled h (single (3 * q.1 + q.2)) p = pulled h u p := by
    intro p hp
    exact sum_single (hN _ (by rw [getD_lt hp]; exact List.getElem_mem _)) u
  exact ⟨key _ h1, key _ h2⟩

theorem plasticHood_sum_left {E : PlasticSolid} {Y : Nat → ℝ} {h : List Nat} (h0 : 0 < h.length) {N : Nat} (hN : ∀ g ∈ h, g < N) (u d : Nat → V3) :
    ∑ q ∈ comps N, plasticHood E Y h (single (3 * q.1 + q.2)) d * u q.1 q.2 = plasticHood E Y h u d := by
  unfold plasticHood plasticForm
  have e : ∀ q ∈ comps N, (-((bondsOf (hoodNbs (h.length - 1))).map fun b => (E.local h (gather 3 h Y)).v b.i * (E.local h (gather 3 h Y)).v b.j *
      ((pulled h (single (3 * q.1 + q.2)) b.j - pulled h (single (3 * q.1 + q.2)) b.i) ⬝ᵥ
        plasticForceRate (E.local h (gather 3 h Y)) E.const (E.edp (h.getD 0 0)) E.yieldLimit
          (theta' (E.local h (gather 3 h Y)) (hoodNbs (h.length - 1)) 0) (stepOf E.yieldLimit (E.trial Y h)) (hoodNbs (h.length - 1)) (pulled h d) b)).sum) *
        u q.1 q.2 = -((bondsOf (hoodNbs (h.length - 1))).map fun b => (E.local h (gather 3 h Y)).v b.i * (E.local h (gather 3 h Y)).v b.j *
      ((u q.1 q.2 • pulled h (single (3 * q.1 + q.2)) b.j - u q.1 q.2 • pulled h (single (3 * q.1 + q.2)) b.i) ⬝ᵥ
        plasticForceRate (E.local h (gather 3 h Y)) E.const (E.edp (h.getD 0 0)) E.yieldLimit
          (theta' (E.local h (gather 3 h Y)) (hoodNbs (h.length - 1)) 0) (stepOf E.yieldLimit (E.trial Y h)) (hoodNbs (h.length - 1)) (pulled h d) b)).sum := by
    intro q _
    rw [neg_mul, ← List.sum_map_mul_right]
    congr 2
    apply List.map_congr_left
    intro b _
    rw [← smul_sub, smul_dotProduct, smul_eq_mul]
    ring
  rw [Finset.sum_congr rfl e, Finset.sum_neg_distrib]
  congr 1
  have hsum : ∀ (l : List Bond) (f : Nat × Fin 3 → Bond → ℝ), ∑ q ∈ comps N, (l.map (f q)).sum = (l.map fun b => ∑ q ∈ comps N, f q b).sum := by
    intro l f
    induction l with
    | nil => simp
    | cons b l ih => simp only [List.map_cons, List.sum_cons, Finset.sum_add_distrib]; rw [ih]
  rw [hsum]
  congr 1
  apply List.map_congr_left
  intro b hb
  obtain ⟨h1, h2⟩ := bond_lt h0 hb
  have key : ∀ p < h.length, ∑ q ∈ comps N, u q.1 q.2 • pulled h (single (3 * q.1 + q.2)) p = pulled h u p := by
    intro p hp
    exact sum_single (hN _ (by rw [getD_lt hp]; exact List.getElem_mem _)) u
  rw [← Finset.mul_sum, ← sum_dotProduct, Finset.sum_sub_distrib, key _ h1, key _ h2]

theorem plasticRow_apply {E : PlasticSolid} (hE : E.Ductile) {F : Fields} (hvol : F.vol = E.v) {S : Scratch} {parts : List Part}
    (hv : ∀ p ∈ parts, p.Valid) (hn : ∀ h ∈ allHoods parts, h.Nodup) {R : Nat → Finset Nat} {A : Sparse}
    (h : plasticTangent (plasticAd E) F S (parts.map Part.proc) (Sparse.zero R) = .ok A) {N : Nat}
    (hN : ∀ h ∈ allHoods parts, ∀ g ∈ h, g < N) (u : Nat → V3) (r : Nat) :
    ∑ J ∈ Finset.range N, ∑ b : Fin 3, A.val r (3 * J + b) * u J b =
      ((allHoods parts).map fun g => plasticHood E F.y g (single r) u).sum := by
  obtain ⟨h1, h2⟩ := plasticTangent_eq hE hvol hv hn h
  rw [← Finset.sum_product' (f := fun J b => A.val r (3 * J + (b : Fin 3).val) * u J b)]
  have e : ∀ q : Nat × Fin 3, A.val r (3 * q.1 + q.2) * u q.1 q.2 =
      ((allHoods parts).map fun g => plasticHood E F.y g (single r) (single (3 * q.1 + q.2)) * u q.1 q.2).sum := by
    intro q
    rw [h2, List.sum_map_mul_right]
  simp only [e]
  rw [list_sum_comm]
  congr 1
  apply List.map_congr_left
  intro g hg
  exact plasticHood_sum (allHoods_pos hv hg) (hN g hg) _ _

theorem plasticColumn_apply {E : PlasticSolid} (hE : E.Ductile) {F : Fields} (hvol : F.vol = E.v) {S : Scratch} {parts : List Part}
    (hv : ∀ p ∈ parts, p.Valid) (hn : ∀ h ∈ allHoods parts, h.Nodup) {R : Nat → Finset Nat} {A : Sparse}
    (h : plasticTangent (plasticAd E) F S (parts.map Part.proc) (Sparse.zero R) = .ok A) {N : Nat}
    (hN : ∀ h ∈ allHoods parts, ∀ g ∈ h, g < N) (u : Nat → V3) (r : Nat) :
    ∑ J ∈ Finset.range N, ∑ b : Fin 3, A.val (3 * J + b) r * u J b =
      ((allHoods parts).map fun g => plasticHood E F.y g u (single r)).sum := by
  obtain ⟨h1, h2⟩ := plasticTangent_eq hE hvol hv hn h
  rw [← Finset.sum_product' (f := fun J b => A.val (3 * J + (b : Fin 3).val) r * u J b)]
  have e : ∀ q : Nat × Fin 3, A.val (3 * q.1 + q.2) r * u q.1 q.2 =
      ((allHoods parts).map fun g => plasticHood E F.y g (single (3 * q.1 + q.2)) (single r) * u q.1 q.2).sum := by
    intro q
    rw [h2, List.sum_map_mul_right]
  simp only [e]
  rw [list_sum_comm]
  congr 1
  apply List.map_congr_left
  intro g hg
  exact plasticHood_sum_left (allHoods_pos hv hg) (hN g hg) _ _

/-! ### C225 -/

/-- **C225** Translations of the whole body are in the null space of the tangent of the elastic-plastic material, and its
columns add up to zero: the changes of the forces are balanced, also where the tangent is not symmetric. -/
theorem C225_translations (E : PlasticSolid) (hE : E.Ductile) (P : Settings) (kind : Kind) (Q : FluxKernel) (F : Fields)
    (hvol : F.vol = E.v) (S : Scratch) (parts : List Part) (hv : ∀ p ∈ parts, p.Valid) (hn : ∀ h ∈ allHoods parts, h.Nodup)
    (R : Nat → Finset Nat) (A : Sparse)
    (h : elasticPlasticJacobian none P kind E Q F S (parts.map Part.proc) (Sparse.zero R) = .ok A) (N : Nat)
    (hN : ∀ h ∈ allHoods parts, ∀ g ∈ h, g < N) (t : V3) (r : Nat) :
    ∑ J ∈ Finset.range N, ∑ b : Fin 3, A.val r (3 * J + b) * t b = 0 ∧
    ∑ J ∈ Finset.range N, ∑ b : Fin 3, A.val (3 * J + b) r * t b = 0 := by
  constructor
  · rw [plasticRow_apply hE hvol hv hn h hN (fun _ => t)]
    apply List.sum_eq_zero
    intro x hx
    obtain ⟨g, _, rfl⟩ := List.mem_map.1 hx
    unfold plasticHood plasticForm
    rw [neg_eq_zero]
    apply List.sum_eq_zero
    intro x hx
    obtain ⟨b, hb, rfl⟩ := List.mem_map.1 hx
    rw [plasticForceRate_zero (fun _ _ => rfl) hb]
    simp
  · rw [plasticColumn_apply hE hvol hv hn h hN (fun _ => t)]
    apply List.sum_eq_zero
    intro x hx
    obtain ⟨g, _, rfl⟩ := List.mem_map.1 hx
    unfold plasticHood plasticForm
    rw [neg_eq_zero]
    apply List.sum_eq_zero
    intro x hx
    obtain ⟨b, hb, rfl⟩ := List.mem_map.1 hx
    simp [pulled]

theorem plasticRotation_rate {S : PlasticSolid} {Y : Nat → ℝ} {h : List Nat} (h0 : 0 < h.length) {W : Matrix (Fin 3) (Fin 3) ℝ} (hW : Wᵀ = -W)
    {b : Bond} (hb : b ∈ bondsOf (hoodNbs (h.length - 1))) :
    plasticForceRate (S.local h (gather 3 h Y)) P edp yv th norm (hoodNbs (h.length - 1)) (pulled h fun J => W *ᵥ comp Y J) b =
      W *ᵥ (pairOf (S.local h (gather 3 h Y)) P edp yv th norm b) := by
  have hd : ∀ b ∈ bondsOf (hoodNbs (h.length - 1)), pulled h (fun J => W *ᵥ comp Y J) b.j - pulled h (fun J => W *ᵥ comp Y J) b.i =
      W *ᵥ (S.local h (gather 3 h Y)).yd b := by
    intro b hb
    obtain ⟨h1, h2⟩ := bond_lt h0 hb
    unfold pulled Config.yd
    show W *ᵥ comp Y (h.getD b.j 0) - W *ᵥ comp Y (h.getD b.i 0) = W *ᵥ (comp (gather 3 h Y) b.j - comp (gather 3 h Y) b.i)
    rw [comp_gather h1, comp_gather h2, Matrix.mulVec_sub]
  have hr : ∀ b ∈ bondsOf (hoodNbs (h.length - 1)), rate (S.local h (gather 3 h Y)) (pulled h fun J => W *ᵥ comp Y J) b = 0 := by
    intro b hb
    unfold rate
    rw [hd b hb, skew_dot hW, zero_div]
  have ht : ∀ p, thetaRate (S.local h (gather 3 h Y)) (hoodNbs (h.length - 1)) (pulled h fun J => W *ᵥ comp Y J) p = 0 := by
    intro p
    unfold thetaRate
    apply List.sum_eq_zero
    intro x hx
    obtain ⟨b, hb, rfl⟩ := List.mem_map.1 hx
    rw [hr b (List.mem_filter.1 hb).1]
    simp
  have htr : ∀ b ∈ bondsOf (hoodNbs (h.length - 1)), trialRate (S.local h (gather 3 h Y)) (hoodNbs (h.length - 1)) (pulled h fun J => W *ᵥ comp Y J) b = 0 := by
    intro b hb
    unfold trialRate
    rw [hr b hb, ht]
    ring
  have hnr : ∀ alpha, normRate (S.local h (gather 3 h Y)) edp alpha th (hoodNbs (h.length - 1)) (pulled h fun J => W *ᵥ comp Y J) = 0 := by
    intro alpha
    unfold normRate
    apply List.sum_eq_zero
    intro x hx
    obtain ⟨b, hb, rfl⟩ := List.mem_map.1 hx
    rw [htr b hb]
    ring
  unfold plasticForceRate plasticTensionRate pairOf
  rw [hr b hb, ht, hd b hb, htr b hb, hnr, Matrix.mulVec_smul]
  cases norm <;> simp [tdRate]

/-- **C225** An infinitesimal rotation of the deformed body turns the forces with it, while points yield as well. -/
theorem C225_rotations (E : PlasticSolid) (hE : E.Ductile) (P : Settings) (kind : Kind) (Q : FluxKernel) (F : Fields)
    (hvol : F.vol = E.v) (S : Scratch) (parts : List Part) (hv : ∀ p ∈ parts, p.Valid) (hn : ∀ h ∈ allHoods parts, h.Nodup)
    (R : Nat → Finset Nat) (A : Sparse)
    (h : elasticPlasticJacobian none P kind E Q F S (parts.map Part.proc) (Sparse.zero R) = .ok A) (N : Nat)
    (hN : ∀ h ∈ allHoods parts, ∀ g ∈ h, g < N) (W : Matrix (Fin 3) (Fin 3) ℝ) (hW : Wᵀ = -W) (f : Nat → ℝ)
    (hf : internalForce (plasticKernel E) F.y F.v (allHoods parts) = .ok f) (I : Nat) (a : Fin 3) :
    ∑ J ∈ Finset.range N, ∑ b : Fin 3, A.val (3 * I + a) (3 * J + b) * (W *ᵥ comp F.y J) b = F.vol I * (W *ᵥ comp f I) a := by
  obtain ⟨hs, _⟩ := plasticTangent_eq hE hvol hv hn h
  obtain ⟨hyv, hpos⟩ := yieldLimit_ok hE
  rw [plasticRow_apply hE hvol hv hn h hN (fun J => W *ᵥ comp F.y J)]
  have hI : (3 * I + (a : Nat)) / 3 = I := by have := a.isLt; omega
  have ha : (3 * I + (a : Nat)) % 3 = a := by have := a.isLt; omega
  have hk : ∀ g ∈ allHoods parts, plasticKernel E g (gather 3 g F.y) (gather 3 g F.v) =
      .ok (plasticValue E E.yieldLimit g (gather 3 g F.y) (stepOf E.yieldLimit (E.trial F.y g))) := by
    intro g hg
    obtain ⟨q, hq⟩ := hs g hg
    obtain ⟨hm, hb, _⟩ := plasticAd_parts hq 0
    rw [← trial_eq (allHoods_pos hv hg)]
    refine plasticKernel_ok _ hyv hpos hm ?_
    intro b hb'
    obtain ⟨q, hq⟩ := hb b hb'
    exact (bondLength_val (S := E.toSolid) (gids := g) hq).2
  have hforce : comp f I = ((allHoods parts).map fun g => comp (hoodForce (plasticKernel E) F.y F.v g) I).sum := by
    have := internalForce_ok (K := plasticKernel E) (Y := F.y) (V := F.v) fun g hg => ⟨_, hk g hg⟩
    rw [hf] at this
    rw [Outcome.ok.inj this]
    funext c
    unfold comp
    induction allHoods parts with
    | nil => simp
    | cons g l ih => simp only [List.map_cons, List.sum_cons, Pi.add_apply]; beta_reduce at ih; rw [ih]
  rw [hforce]
  have hsum : ∀ l : List (List Nat), F.vol I * (W *ᵥ (l.map fun g => comp (hoodForce (plasticKernel E) F.y F.v g) I).sum) a =
      (l.map fun g => F.vol I * (W *ᵥ comp (hoodForce (plasticKernel E) F.y F.v g) I) a).sum := by
    intro l
    induction l with
    | nil => simp
    | cons g l ih => simp only [List.map_cons, List.sum_cons, Matrix.mulVec_add, Pi.add_apply, mul_add]; rw [ih]
  rw [hsum]
  congr 1
  apply List.map_congr_left
  intro g hg
  have h0 := allHoods_pos hv hg
  unfold plasticHood plasticForm
  have hrow := row_eq (S := E.toSolid) (Y := F.y) h0 (hn g hg) (3 * I + a)
    (plasticForceRate (E.local g (gather 3 g F.y)) E.const (E.edp (g.getD 0 0)) E.yieldLimit
      (theta' (E.local g (gather 3 g F.y)) (hoodNbs (g.length - 1)) 0) (stepOf E.yieldLimit (E.trial F.y g)) (hoodNbs (g.length - 1))
      (pulled g fun J => W *ᵥ comp F.y J))
  refine hrow.trans ?_
  rw [hI]
  by_cases hm : I ∈ g
  · rw [if_pos hm, hvol]
    congr 1
    rw [List.map_congr_left (fun b hb => by rw [plasticRotation_rate h0 hW hb]), mulVec_pulls]
    have hc : comp (hoodForce (plasticKernel E) F.y F.v g) I = ((bondsOf (hoodNbs (g.length - 1))).map fun b =>
        pull (selfVol (E.toSolid.hood g (gather 3 g F.y))) (nbrVol (E.toSolid.hood g (gather 3 g F.y))) (g.idxOf I)
        (b, pairOf (E.local g (gather 3 g F.y)) E.const (E.edp (g.getD 0 0)) E.yieldLimit
          (theta' (E.local g (gather 3 g F.y)) (hoodNbs (g.length - 1)) 0) (stepOf E.yieldLimit (E.trial F.y g)) b)).sum := by
      funext c
      unfold comp hoodForce spread
      have e1 : (3 * I + (c : Nat)) / 3 = I := by have := c.isLt; omega
      have e2 : (3 * I + (c : Nat)) % 3 = c := by have := c.isLt; omega
      rw [e1, e2, if_pos hm, hk g hg]
      unfold out plasticValue
      simp only
      have e3 : (3 * g.idxOf I + (c : Nat)) / 3 = g.idxOf I := by have := c.isLt; omega
      have e4 : (3 * g.idxOf I + (c : Nat)) % 3 = c := by have := c.isLt; omega
      simp only [e3, e4]
      rfl
    rw [hc]
    simp only [ha]
  · rw [if_neg hm]
    have hc : comp (hoodForce (plasticKernel E) F.y F.v g) I = 0 := by
      funext c
      unfold comp hoodForce spread
      have e1 : (3 * I + (c : Nat)) / 3 = I := by have := c.isLt; omega
      rw [e1, if_neg hm]
      rfl
    rw [hc, Matrix.mulVec_zero]
    simp

/-! The hypotheses are met by four points one of which yields and has a broken bond. -/

theorem quartet_below : ∀ h ∈ allHoods quartetParts, ∀ g ∈ h, g < 4 := by
  rw [quartet_hoods]
  decide

example : ∃ R A, elasticPlasticJacobian none (settings 1 1) .full quartet (fun _ _ => .ub) quartetMoved fresh
    (quartetParts.map Part.proc) (Sparse.zero R) = .ok A ∧
    ∀ r, ∑ J ∈ Finset.range 4, ∑ b : Fin 3, A.val (3 * J + b) r * (![1, 2, 3] : V3) b = 0 := by
  obtain ⟨R, A, hA⟩ := quartet_tangent
  exact ⟨R, A, hA, fun r => (C225_translations quartet quartet_ductile _ _ _ _ rfl _ _ quartet_valid quartet_nodup R A hA 4 quartet_below _ r).2⟩

example : ∃ R A f, elasticPlasticJacobian none (settings 1 1) .full (trio 1) (fun _ _ => .ub) (trioMoved (1 / 10)) fresh
      (trioParts.map Part.proc) (Sparse.zero R) = .ok A ∧
    internalForce (plasticKernel (trio 1)) (trioMoved (1 / 10)).y (trioMoved (1 / 10)).v (allHoods trioParts) = .ok f := by
  obtain ⟨R, A, _, hA⟩ := (C220_defined (trio 1) (trio_ductile one_ne_zero) (settings 1 1) .full (fun _ _ => .ub) (trioMoved (1 / 10)) fresh
    trioParts trio_valid trio_nodup).2 ⟨trio_joined, trio_sound (by norm_num)⟩
  obtain ⟨f, hf, _⟩ := C220_consistent_tangent _ (trio_ductile one_ne_zero) _ _ _ _ _ _ trio_valid trio_nodup trio_off R A hA 0 0
  have := hf.self_of_nhds
  rw [show bump (trioMoved (1 / 10)).y 0 0 = (trioMoved (1 / 10)).y by simp [bump]] at this
  exact ⟨R, A, f 0, hA, this⟩

end Verif.Fad
