import Verif.Fad.SymLemmas

/-!
# C215, C216, C217: symmetry, rigid motions and stability of the elastic tangent
-/

noncomputable section

namespace Verif.Fad

open Verif Verif.Neigh Verif.Mech Verif.Tangent Verif.Energy Verif.Lps
open scoped Classical Topology Matrix

/-! ### C215 -/

/-- **C215** The tangent is symmetric, whatever the deformation, the bond damage, the temperatures and the weighted volumes. -/
theorem C215_symmetric (E : Solid) (P : Settings) (Q : FluxKernel) (F : Fields) (hvol : F.vol = E.v) (S : Scratch)
    (parts : List Part) (hv : ∀ p ∈ parts, p.Valid) (hn : ∀ h ∈ allHoods parts, h.Nodup) (R : Nat → Finset Nat) (A : Sparse)
    (h : elasticTangent none P .full E Q F S (parts.map Part.proc) (Sparse.zero R) = .ok A) (r c : Nat) :
    A.val r c = A.val c r := by
  obtain ⟨h1, h2⟩ := tangent_eq hvol hv hn (show adTangent .full (elasticAd E) F S _ _ = _ from h)
  rw [h2, h2]
  congr 1
  apply List.map_congr_left
  intro g hg
  exact hoodForm_symm (h1 g hg) _ _

/-! ### C216 -/

/-- **C216** Translations of the whole body are in the null space of the tangent; as the tangent is symmetric, its columns add up
to zero as well: the changes of the forces are balanced. -/
theorem C216_translations (E : Solid) (P : Settings) (Q : FluxKernel) (F : Fields) (hvol : F.vol = E.v) (S : Scratch)
    (parts : List Part) (hv : ∀ p ∈ parts, p.Valid) (hn : ∀ h ∈ allHoods parts, h.Nodup) (R : Nat → Finset Nat) (A : Sparse)
    (h : elasticTangent none P .full E Q F S (parts.map Part.proc) (Sparse.zero R) = .ok A) (N : Nat)
    (hN : ∀ h ∈ allHoods parts, ∀ g ∈ h, g < N) (t : V3) (r : Nat) :
    ∑ J ∈ Finset.range N, ∑ b : Fin 3, A.val r (3 * J + b) * t b = 0 ∧
    ∑ J ∈ Finset.range N, ∑ b : Fin 3, A.val (3 * J + b) r * t b = 0 := by
  have h1 : ∑ J ∈ Finset.range N, ∑ b : Fin 3, A.val r (3 * J + b) * t b = 0 := by
    rw [row_apply hvol hv hn (show adTangent .full (elasticAd E) F S _ _ = _ from h) hN (fun _ => t)]
    apply List.sum_eq_zero
    intro x hx
    obtain ⟨g, _, rfl⟩ := List.mem_map.1 hx
    unfold hoodForm form
    rw [neg_eq_zero]
    apply List.sum_eq_zero
    intro x hx
    obtain ⟨b, hb, rfl⟩ := List.mem_map.1 hx
    rw [forceRate_zero (fun _ _ => rfl) hb]
    simp
  refine ⟨h1, ?_⟩
  rw [← h1]
  apply Finset.sum_congr rfl
  intro J _
  apply Finset.sum_congr rfl
  intro b _
  rw [C215_symmetric E P Q F hvol S parts hv hn R A h]

theorem skew_dot {W : Matrix (Fin 3) (Fin 3) ℝ} (hW : Wᵀ = -W) (a : V3) : a ⬝ᵥ (W *ᵥ a) = 0 := by
  have h1 : a ⬝ᵥ (W *ᵥ a) = (Wᵀ *ᵥ a) ⬝ᵥ a := by rw [Matrix.mulVec_transpose, Matrix.dotProduct_mulVec]
  rw [hW, Matrix.neg_mulVec, neg_dotProduct, dotProduct_comm] at h1
  rw [dotProduct_comm]
  linarith

theorem rotation_rate {S : Solid} {Y : Nat → ℝ} {h : List Nat} (h0 : 0 < h.length) {W : Matrix (Fin 3) (Fin 3) ℝ} (hW : Wᵀ = -W)
    {b : Bond} (hb : b ∈ bondsOf (hoodNbs (h.length - 1))) :
    forceRate (S.hood h (gather 3 h Y)) S.K S.mu (hoodNbs (h.length - 1)) (pulled h fun J => W *ᵥ comp Y J) b =
      W *ᵥ ((tension (S.hood h (gather 3 h Y)) S.K S.mu (theta' (S.hood h (gather 3 h Y)) (hoodNbs (h.length - 1))) b /
        (S.hood h (gather 3 h Y)).dY b) • (S.hood h (gather 3 h Y)).yd b) := by
  have hd : ∀ b ∈ bondsOf (hoodNbs (h.length - 1)), pulled h (fun J => W *ᵥ comp Y J) b.j - pulled h (fun J => W *ᵥ comp Y J) b.i =
      W *ᵥ (S.hood h (gather 3 h Y)).yd b := by
    intro b hb
    obtain ⟨h1, h2⟩ := bond_lt h0 hb
    unfold pulled Config.yd
    show W *ᵥ comp Y (h.getD b.j 0) - W *ᵥ comp Y (h.getD b.i 0) = W *ᵥ (comp (gather 3 h Y) b.j - comp (gather 3 h Y) b.i)
    rw [comp_gather h1, comp_gather h2, Matrix.mulVec_sub]
  have hr : ∀ b ∈ bondsOf (hoodNbs (h.length - 1)), rate (S.hood h (gather 3 h Y)) (pulled h fun J => W *ᵥ comp Y J) b = 0 := by
    intro b hb
    unfold rate
    rw [hd b hb, skew_dot hW, zero_div]
  have ht : ∀ p, thetaRate (S.hood h (gather 3 h Y)) (hoodNbs (h.length - 1)) (pulled h fun J => W *ᵥ comp Y J) p = 0 := by
    intro p
    unfold thetaRate
    apply List.sum_eq_zero
    intro x hx
    obtain ⟨b, hb, rfl⟩ := List.mem_map.1 hx
    rw [hr b (List.mem_filter.1 hb).1]
    simp
  unfold forceRate tensionRate
  rw [hr b hb, ht, hd b hb, Matrix.mulVec_smul]
  simp

theorem mulVec_pulls (W : Matrix (Fin 3) (Fin 3) ℝ) {vi vj : Bond → ℝ} {k : Nat} {G : Bond → V3} (l : List Bond) :
    (l.map fun b => pull vi vj k (b, W *ᵥ G b)).sum = W *ᵥ (l.map fun b => pull vi vj k (b, G b)).sum := by
  induction l with
  | nil => simp
  | cons b l ih =>
    simp only [List.map_cons, List.sum_cons, Matrix.mulVec_add]
    rw [ih]
    congr 1
    unfold pull
    rw [Matrix.mulVec_sub]
    congr 1
    · split
      · simp only [Matrix.mulVec_smul]
      · simp
    · split
      · simp only [Matrix.mulVec_smul]
      · simp

/-- **C216** An infinitesimal rotation of the deformed body turns the forces with it; so it is in the null space of the tangent
where the internal forces vanish. -/
theorem C216_rotations (E : Solid) (P : Settings) (Q : FluxKernel) (F : Fields) (hvol : F.vol = E.v) (S : Scratch)
    (parts : List Part) (hv : ∀ p ∈ parts, p.Valid) (hn : ∀ h ∈ allHoods parts, h.Nodup) (R : Nat → Finset Nat) (A : Sparse)
    (h : elasticTangent none P .full E Q F S (parts.map Part.proc) (Sparse.zero R) = .ok A) (N : Nat)
    (hN : ∀ h ∈ allHoods parts, ∀ g ∈ h, g < N) (W : Matrix (Fin 3) (Fin 3) ℝ) (hW : Wᵀ = -W) (f : Nat → ℝ)
    (hf : internalForce (elasticKernel E) F.y F.v (allHoods parts) = .ok f) (I : Nat) (a : Fin 3) :
    ∑ J ∈ Finset.range N, ∑ b : Fin 3, A.val (3 * I + a) (3 * J + b) * (W *ᵥ comp F.y J) b = F.vol I * (W *ᵥ comp f I) a := by
  have h' : adTangent .full (elasticAd E) F S _ _ = _ := h
  obtain ⟨hs, _⟩ := tangent_eq hvol hv hn h'
  rw [row_apply hvol hv hn h' hN (fun J => W *ᵥ comp F.y J)]
  have hI : (3 * I + (a : Nat)) / 3 = I := by have := a.isLt; omega
  have ha : (3 * I + (a : Nat)) % 3 = a := by have := a.isLt; omega
  have hk : ∀ g ∈ allHoods parts, elasticKernel E g (gather 3 g F.y) (gather 3 g F.v) = .ok (hoodValue E g (gather 3 g F.y)) :=
    fun g hg => elasticKernel_ok _ (elasticAd_iff.1 (hs g hg))
  have hforce : comp f I = ((allHoods parts).map fun g => comp (hoodForce (elasticKernel E) F.y F.v g) I).sum := by
    have := internalForce_ok (K := elasticKernel E) (Y := F.y) (V := F.v) fun g hg => ⟨_, hk g hg⟩
    rw [hf] at this
    rw [Outcome.ok.inj this]
    funext c
    unfold comp
    induction allHoods parts with
    | nil => simp
    | cons g l ih => simp only [List.map_cons, List.sum_cons, Pi.add_apply]; beta_reduce at ih; rw [ih]
  rw [hforce]
  have hsum : ∀ l : List (List Nat), F.vol I * (W *ᵥ (l.map fun g => comp (hoodForce (elasticKernel E) F.y F.v g) I).sum) a =
      (l.map fun g => F.vol I * (W *ᵥ comp (hoodForce (elasticKernel E) F.y F.v g) I) a).sum := by
    intro l
    induction l with
    | nil => simp
    | cons g l ih => simp only [List.map_cons, List.sum_cons, Matrix.mulVec_add, Pi.add_apply, mul_add]; rw [ih]
  rw [hsum]
  congr 1
  apply List.map_congr_left
  intro g hg
  have h0 := allHoods_pos hv hg
  unfold hoodForm form
  rw [row_eq h0 (hn g hg), hI]
  by_cases hm : I ∈ g
  · rw [if_pos hm, hvol]
    congr 1
    rw [List.map_congr_left (fun b hb => by rw [rotation_rate h0 hW hb]), mulVec_pulls]
    have hc : comp (hoodForce (elasticKernel E) F.y F.v g) I = ((bondsOf (hoodNbs (g.length - 1))).map fun b =>
        pull (selfVol (E.hood g (gather 3 g F.y))) (nbrVol (E.hood g (gather 3 g F.y))) (g.idxOf I)
        (b, (tension (E.hood g (gather 3 g F.y)) E.K E.mu (theta' (E.hood g (gather 3 g F.y)) (hoodNbs (g.length - 1))) b /
        (E.hood g (gather 3 g F.y)).dY b) • (E.hood g (gather 3 g F.y)).yd b)).sum := by
      funext c
      unfold comp hoodForce spread
      have e1 : (3 * I + (c : Nat)) / 3 = I := by have := c.isLt; omega
      have e2 : (3 * I + (c : Nat)) % 3 = c := by have := c.isLt; omega
      rw [e1, e2, if_pos hm, hk g hg]
      unfold out hoodValue
      simp only
      have e3 : (3 * g.idxOf I + (c : Nat)) / 3 = g.idxOf I := by have := c.isLt; omega
      have e4 : (3 * g.idxOf I + (c : Nat)) % 3 = c := by have := c.isLt; omega
      simp only [e3, e4]
    rw [hc]
    simp only [ha]
  · rw [if_neg hm]
    have hc : comp (hoodForce (elasticKernel E) F.y F.v g) I = 0 := by
      funext c
      unfold comp hoodForce spread
      have e1 : (3 * I + (c : Nat)) / 3 = I := by have := c.isLt; omega
      rw [e1, if_neg hm]
      rfl
    rw [hc, Matrix.mulVec_zero]
    simp

/-! ### C217 -/

theorem hood_js (n : Nat) : (bondsOf (hoodNbs n)).map (fun b => b.j) = (List.range n).map (· + 1) := by
  have := congrArg (List.map Prod.snd) (bondsFrom_pairs (hoodNbs n) 0 0)
  rw [List.map_map] at this
  simpa [Function.comp_def] using this

theorem pull_unique {vi vj : Bond → ℝ} {G : Bond → V3} : ∀ {l : List Bond}, (l.map fun b => b.j).Nodup → (∀ b ∈ l, b.i = 0) →
    ∀ {b : Bond}, b ∈ l → b.j ≠ 0 → (l.map fun b' => pull vi vj b.j (b', G b')).sum = -(vi b • G b)
  | [], _, _, b, hb, _ => by cases hb
  | c :: l, hn, hi, b, hb, hj => by
    rw [List.map_cons, List.sum_cons]
    rw [List.map_cons, List.nodup_cons] at hn
    have rest : ∀ b' ∈ c :: l, b'.j ≠ b.j → pull vi vj b.j (b', G b') = 0 := by
      intro b' hb' hne
      unfold pull
      rw [if_neg (by rw [hi b' hb']; exact Ne.symm hj), if_neg hne, sub_zero]
    rcases List.mem_cons.1 hb with rfl | hb'
    · have hz : (l.map fun b' => pull vi vj b.j (b', G b')).sum = 0 := by
        apply List.sum_eq_zero
        intro x hx
        obtain ⟨b', hb', rfl⟩ := List.mem_map.1 hx
        exact rest b' (List.mem_cons_of_mem _ hb') fun e => hn.1 (List.mem_map.2 ⟨b', hb', e⟩)
      rw [hz, add_zero]
      unfold pull
      rw [if_neg (by rw [hi b List.mem_cons_self]; exact Ne.symm hj), if_pos rfl, zero_sub]
    · rw [rest c List.mem_cons_self fun e => hn.1 (List.mem_map.2 ⟨b, hb', e.symm⟩), zero_add]
      exact pull_unique hn.2 (fun b hb => hi b (List.mem_cons_of_mem _ hb)) hb' hj

theorem tension_nonneg {S : Solid} (hS : S.Physical) {Y : Nat → ℝ} {h : List Nat} (h0 : 0 < h.length)
    (hs : ∃ f, elasticAd S h (gather 3 h Y) = some f) (hp : S.Pulls Y h) {b : Bond} (hb : b ∈ bondsOf (hoodNbs (h.length - 1))) :
    0 ≤ tension (S.hood h (gather 3 h Y)) S.K S.mu (theta' (S.hood h (gather 3 h Y)) (hoodNbs (h.length - 1))) b := by
  have hbs := elasticAd_iff.1 hs
  have hk := elasticKernel_ok (fun _ => 0) hbs
  obtain ⟨hi, hj0, _⟩ := hood_bond hb
  obtain ⟨h1, h2⟩ := bond_lt h0 hb
  have key := hp _ hk b.j hj0 h2
  set C := S.hood h (gather 3 h Y) with hC
  set T := tension C S.K S.mu (theta' C (hoodNbs (h.length - 1))) b with hT
  have hyd : comp Y (h.getD b.j 0) - comp Y (h.getD 0 0) = C.yd b := by
    rw [← comp_gather h2, ← comp_gather h0]
    unfold Config.yd
    rw [hi]
    rfl
  have hval : comp (hoodValue S h (gather 3 h Y)) b.j = -(C.v 0 • ((T / C.dY b) • C.yd b)) := by
    have e := pull_unique (vi := selfVol C) (vj := nbrVol C) (G := fun b => (tension C S.K S.mu (theta' C (hoodNbs (h.length - 1))) b /
      C.dY b) • C.yd b) (l := bondsOf (hoodNbs (h.length - 1)))
      (by rw [hood_js]; exact List.Nodup.map (fun _ _ e => Nat.succ.inj e) List.nodup_range) (fun b hb => (hood_bond hb).1) hb (by omega)
    have e0 : selfVol C b = C.v 0 := by unfold selfVol; rw [hi]
    rw [e0] at e
    rw [← e]
    funext c
    unfold comp hoodValue
    have e3 : (3 * b.j + (c : Nat)) / 3 = b.j := by have := c.isLt; omega
    have e4 : (3 * b.j + (c : Nat)) % 3 = c := by have := c.isLt; omega
    simp only [e3, e4]
    rfl
  rw [hval, hyd, neg_dotProduct, smul_dotProduct, smul_dotProduct, smul_eq_mul, smul_eq_mul] at key
  have hYpos : 0 < C.dY b := lt_of_le_of_ne (Real.sqrt_nonneg _) (Ne.symm (hbs b hb).2)
  have hdd : C.yd b ⬝ᵥ C.yd b = C.dY b * C.dY b := by
    unfold Config.dY
    rw [len_eq_dot, Real.mul_self_sqrt]
    exact Finset.sum_nonneg fun i _ => mul_self_nonneg _
  rw [hdd] at key
  have hv0 : 0 < C.v 0 := hS.v _
  have : C.v 0 * (T / C.dY b * (C.dY b * C.dY b)) = (C.v 0 * C.dY b) * T := by
    field_simp
  rw [this] at key
  by_contra hneg
  push Not at hneg
  nlinarith [mul_pos hv0 hYpos]

theorem rate_le {C : Config} {b : Bond} (hY : C.dY b ≠ 0) (d : Nat → V3) :
    rate C d b * rate C d b ≤ (d b.j - d b.i) ⬝ᵥ (d b.j - d b.i) := by
  have hdd : C.yd b ⬝ᵥ C.yd b = C.dY b * C.dY b := by
    unfold Config.dY
    rw [len_eq_dot, Real.mul_self_sqrt]
    exact Finset.sum_nonneg fun i _ => mul_self_nonneg _
  have hr : C.yd b ⬝ᵥ (d b.j - d b.i) = rate C d b * C.dY b := by
    unfold rate
    field_simp
  generalize rate C d b = r at hr ⊢
  generalize d b.j - d b.i = e at hr ⊢
  have h1 : 0 ≤ (C.dY b • e - r • C.yd b) ⬝ᵥ (C.dY b • e - r • C.yd b) := Finset.sum_nonneg fun i _ => mul_self_nonneg _
  simp only [sub_dotProduct, dotProduct_sub, smul_dotProduct, dotProduct_smul, smul_eq_mul] at h1
  rw [dotProduct_comm e (C.yd b), hr, hdd] at h1
  have hpos : 0 < C.dY b * C.dY b := mul_self_pos.2 hY
  have : 0 ≤ (C.dY b * C.dY b) * (e ⬝ᵥ e - r * r) := by
    calc (0 : ℝ) ≤ _ := h1
      _ = _ := by ring
  linarith [nonneg_of_mul_nonneg_right this hpos]

theorem weighed {S : Solid} {hs : List (List Nat)} (h : S.Weighed hs) {g : List Nat} (hg : g ∈ hs) (y : Nat → ℝ) :
    (S.hood g y).m 0 = ((bondsOf (hoodNbs (g.length - 1))).map fun b =>
      (S.hood g y).om b * (S.hood g y).zeta b ^ 2 * (S.hood g y).v b.j).sum := by
  have hW : Weighted (S.hood g fun _ => 0) (hoodNbs (g.length - 1)) := by
    obtain ⟨m', h1, h2, h3⟩ := C22_stored (S.hood g fun _ => 0) (hoodNbs (g.length - 1)) (S.hood g fun _ => 0).m
    refine ⟨(S.hood g fun _ => 0).m, ?_⟩
    rw [h1]
    congr 1
    funext p
    by_cases hp : p = 0
    · subst hp
      rw [h2 0 _ rfl]
      exact (h g hg).symm
    · exact h3 p (by show 1 ≤ p; omega)
  have := weighted_eq hW (p := 0) (by simp)
  unfold bondsAt at this
  rw [filter_hood] at this
  exact this

theorem form_nonpos {S : Solid} (hS : S.Physical) {Y : Nat → ℝ} {hs : List (List Nat)} (hw : S.Weighed hs) {h : List Nat} (hh : h ∈ hs)
    (h0 : 0 < h.length) (hex : ∃ f, elasticAd S h (gather 3 h Y) = some f) (hp : S.Pulls Y h) (u : Nat → V3) :
    hoodForm S Y h u u ≤ 0 := by
  have hbs := elasticAd_iff.1 hex
  unfold hoodForm
  rw [form_eq hbs]
  have hT := fun b hb => tension_nonneg hS h0 hex hp (b := b) hb
  have hwt := weighed hw hh (gather 3 h Y)
  set C := S.hood h (gather 3 h Y) with hC
  set d := pulled h u with hd
  set n := h.length - 1 with hn
  have hv : ∀ p, 0 < C.v p := fun p => hS.v _
  have hom : ∀ b, 0 ≤ C.om b := fun b => hS.omega _
  have hdm : ∀ t, 0 ≤ C.damage t ∧ C.damage t ≤ 1 := fun t => hS.damage _ _
  by_cases hempty : bondsOf (hoodNbs n) = []
  · unfold thetaRate bondsAt
    rw [hempty]
    simp
  obtain ⟨b0, hb0⟩ := List.exists_mem_of_ne_nil _ hempty
  have hm0 : C.m 0 ≠ 0 := by
    have := (hbs b0 hb0).1
    rwa [(hood_bond hb0).1] at this
  have hmpos : 0 < C.m 0 := by
    refine lt_of_le_of_ne ?_ (Ne.symm hm0)
    rw [hwt]
    exact list_nonneg fun b _ => mul_nonneg (mul_nonneg (hom b) (sq_nonneg _)) (hv _).le
  set th := thetaRate C (hoodNbs n) d 0 with hth
  have hth' : th * C.m 0 = 3 * ((bondsOf (hoodNbs n)).map fun b => kap C b * C.zeta b * rate C d b).sum := by
    rw [hth]
    unfold thetaRate bondsAt
    rw [filter_hood, mul_comm, ← sum_scale, ← sum_scale]
    apply sum_congr'
    intro b _
    field_simp
  -- the square of the deviatoric part
  have hsq : 0 ≤ ((bondsOf (hoodNbs n)).map fun b => C.om b * C.v b.j * ((1 - C.damage b.b) * rate C d b - th * C.zeta b / 3) ^ 2).sum :=
    list_nonneg fun b _ => mul_nonneg (mul_nonneg (hom b) (hv _).le) (sq_nonneg _)
  have hexp : ((bondsOf (hoodNbs n)).map fun b => C.om b * C.v b.j * ((1 - C.damage b.b) * rate C d b - th * C.zeta b / 3) ^ 2).sum =
      ((bondsOf (hoodNbs n)).map fun b => (1 - C.damage b.b) * kap C b * (rate C d b * rate C d b)).sum -
      2 * th / 3 * ((bondsOf (hoodNbs n)).map fun b => kap C b * C.zeta b * rate C d b).sum + th ^ 2 / 9 * C.m 0 := by
    rw [hwt]
    generalize bondsOf (hoodNbs n) = l
    induction l with
    | nil => simp
    | cons b l ih =>
      simp only [List.map_cons, List.sum_cons]
      rw [ih]
      unfold kap
      ring
  set Sd := ((bondsOf (hoodNbs n)).map fun b => (1 - C.damage b.b) * kap C b * (rate C d b * rate C d b)).sum with hSd
  have hlow : th ^ 2 / 9 * C.m 0 ≤ Sd := by
    have : ((bondsOf (hoodNbs n)).map fun b => kap C b * C.zeta b * rate C d b).sum = th * C.m 0 / 3 := by linarith
    rw [hexp, this] at hsq
    nlinarith
  have hgeo : 0 ≤ ((bondsOf (hoodNbs n)).map fun b => C.v 0 * C.v b.j * (tension C S.K S.mu (theta' C (hoodNbs n)) b / C.dY b) *
      ((d b.j - d b.i) ⬝ᵥ (d b.j - d b.i) - rate C d b * rate C d b)).sum := by
    apply list_nonneg
    intro b hb
    have hY : 0 ≤ C.dY b := Real.sqrt_nonneg _
    exact mul_nonneg (mul_nonneg (mul_nonneg (hv _).le (hv _).le) (div_nonneg (hT b hb) hY)) (sub_nonneg.2 (rate_le (hbs b hb).2 d))
  have hsplit : ((bondsOf (hoodNbs n)).map fun b => C.v 0 * (15 * S.mu / C.m 0) * ((1 - C.damage b.b) * kap C b) * (rate C d b * rate C d b) +
        C.v 0 * C.v b.j * (tension C S.K S.mu (theta' C (hoodNbs n)) b / C.dY b) *
          ((d b.j - d b.i) ⬝ᵥ (d b.j - d b.i) - rate C d b * rate C d b)).sum = C.v 0 * (15 * S.mu / C.m 0) * Sd +
      ((bondsOf (hoodNbs n)).map fun b => C.v 0 * C.v b.j * (tension C S.K S.mu (theta' C (hoodNbs n)) b / C.dY b) *
      ((d b.j - d b.i) ⬝ᵥ (d b.j - d b.i) - rate C d b * rate C d b)).sum := by
    rw [List.sum_map_add, hSd, ← sum_scale]
    congr 1
    apply sum_congr'
    intro b _
    ring
  rw [hsplit]
  have hmain : 0 ≤ C.v 0 * (S.K - 5 * S.mu / 3) * th * th + C.v 0 * (15 * S.mu / C.m 0) * Sd := by
    have e1 : C.v 0 * (15 * S.mu / C.m 0) * (th ^ 2 / 9 * C.m 0) ≤ C.v 0 * (15 * S.mu / C.m 0) * Sd :=
      mul_le_mul_of_nonneg_left hlow (mul_nonneg (hv 0).le (div_nonneg (mul_nonneg (by norm_num) hS.mu) hmpos.le))
    have e2 : C.v 0 * (15 * S.mu / C.m 0) * (th ^ 2 / 9 * C.m 0) = C.v 0 * (5 * S.mu / 3) * th * th := by
      field_simp
      ring
    have e3 : 0 ≤ C.v 0 * S.K * (th * th) := mul_nonneg (mul_nonneg (hv 0).le hS.K) (mul_self_nonneg _)
    nlinarith
  linarith

theorem quadratic_eq {E : Solid} {F : Fields} (hvol : F.vol = E.v) {S : Scratch} {parts : List Part}
    (hv : ∀ p ∈ parts, p.Valid) (hn : ∀ h ∈ allHoods parts, h.Nodup) {R : Nat → Finset Nat} {A : Sparse}
    (h : adTangent .full (elasticAd E) F S (parts.map Part.proc) (Sparse.zero R) = .ok A) {N : Nat}
    (hN : ∀ h ∈ allHoods parts, ∀ g ∈ h, g < N) (u : Nat → V3) :
    ∑ I ∈ Finset.range N, ∑ a : Fin 3, u I a * ∑ J ∈ Finset.range N, ∑ b : Fin 3, A.val (3 * I + a) (3 * J + b) * u J b =
      ((allHoods parts).map fun g => hoodForm E F.y g u u).sum := by
  have e : ∀ (I : Nat) (a : Fin 3), u I a * ∑ J ∈ Finset.range N, ∑ b : Fin 3, A.val (3 * I + a) (3 * J + b) * u J b =
      ((allHoods parts).map fun g => u I a * hoodForm E F.y g (single (3 * I + a)) u).sum := by
    intro I a
    rw [row_apply hvol hv hn h hN, List.sum_map_mul_left]
  simp only [e]
  rw [← Finset.sum_product' (f := fun (I : Nat) (a : Fin 3) => ((allHoods parts).map fun g => u I a *
    hoodForm E F.y g (single (3 * I + a)) u).sum), list_sum_comm (comps N) (allHoods parts)
    (fun q g => u q.1 q.2 * hoodForm E F.y g (single (3 * q.1 + q.2)) u)]
  congr 1
  apply List.map_congr_left
  intro g hg
  exact hoodForm_sum (allHoods_pos hv hg) (hN g hg) u u

/-- **C217** If no bond pushes, the tangent is negative semidefinite: no displacement of the points lets the forces do positive
work to second order. -/
theorem C217_stable (E : Solid) (hE : E.Physical) (P : Settings) (Q : FluxKernel) (F : Fields) (hvol : F.vol = E.v) (S : Scratch)
    (parts : List Part) (hv : ∀ p ∈ parts, p.Valid) (hn : ∀ h ∈ allHoods parts, h.Nodup) (hw : E.Weighed (allHoods parts))
    (hp : ∀ h ∈ allHoods parts, E.Pulls F.y h) (R : Nat → Finset Nat) (A : Sparse)
    (h : elasticTangent none P .full E Q F S (parts.map Part.proc) (Sparse.zero R) = .ok A) (N : Nat)
    (hN : ∀ h ∈ allHoods parts, ∀ g ∈ h, g < N) (u : Nat → V3) :
    ∑ I ∈ Finset.range N, ∑ a : Fin 3, u I a * ∑ J ∈ Finset.range N, ∑ b : Fin 3, A.val (3 * I + a) (3 * J + b) * u J b ≤ 0 := by
  have h' : adTangent .full (elasticAd E) F S _ _ = _ := h
  obtain ⟨hs, _⟩ := tangent_eq hvol hv hn h'
  rw [quadratic_eq hvol hv hn h' hN]
  have hle : ∀ x ∈ (allHoods parts).map fun g => hoodForm E F.y g u u, x ≤ 0 := by
    intro x hx
    obtain ⟨g, hg, rfl⟩ := List.mem_map.1 hx
    exact form_nonpos hE hw hg (allHoods_pos hv hg) (hs g hg) (hp g hg) u
  revert hle
  generalize (allHoods parts).map (fun g => hoodForm E F.y g u u) = l
  induction l with
  | nil => intro _; exact le_refl _
  | cons x l ih =>
    intro hle
    rw [List.sum_cons]
    exact add_nonpos (hle x List.mem_cons_self) (ih fun y hy => hle y (List.mem_cons_of_mem _ hy))

/-! ### The bar -/

/-- The one bond of a neighborhood of two points. -/
theorem bar_bonds : bondsOf (hoodNbs 1) = [⟨0, 1, 0⟩] := by decide

theorem bar_hood {s : ℝ} {g : List Nat} (hg : g ∈ allHoods pair) : g.length = 2 ∧ ∃ e : ℝ, e * e = 1 ∧
    (bar.hood g (gather 3 g (stretched s).y)).yd ⟨0, 1, 0⟩ = ![e * s, 0, 0] ∧
    (bar.hood g (gather 3 g (stretched s).y)).zeta ⟨0, 1, 0⟩ = 1 := by
  rw [pair_hoods] at hg
  have hx : ∀ i j : Nat, (i = 0 ∧ j = 1) ∨ (i = 1 ∧ j = 0) → len (bar.x j - bar.x i) = 1 := by
    rintro i j (⟨rfl, rfl⟩ | ⟨rfl, rfl⟩) <;> simp [len, bar]
  simp only [List.mem_cons, List.not_mem_nil, or_false] at hg
  rcases hg with rfl | rfl
  · refine ⟨rfl, 1, by ring, ?_, hx 0 1 (.inl ⟨rfl, rfl⟩)⟩
    show comp (gather 3 [0, 1] (stretched s).y) 1 - comp (gather 3 [0, 1] (stretched s).y) 0 = _
    rw [comp_gather (by simp), comp_gather (by simp)]
    show comp (stretched s).y 1 - comp (stretched s).y 0 = _
    rw [comp_one, comp_zero]
    funext c
    fin_cases c <;> simp
  · refine ⟨rfl, -1, by ring, ?_, hx 1 0 (.inr ⟨rfl, rfl⟩)⟩
    show comp (gather 3 [1, 0] (stretched s).y) 1 - comp (gather 3 [1, 0] (stretched s).y) 0 = _
    rw [comp_gather (by simp), comp_gather (by simp)]
    show comp (stretched s).y 0 - comp (stretched s).y 1 = _
    rw [comp_one, comp_zero]
    funext c
    fin_cases c <;> simp

theorem bar_tension {s : ℝ} (hs : 0 < s) {g : List Nat} (hg : g ∈ allHoods pair) :
    (bar.hood g (gather 3 g (stretched s).y)).dY ⟨0, 1, 0⟩ = s ∧
    tension (bar.hood g (gather 3 g (stretched s).y)) bar.K bar.mu
      (theta' (bar.hood g (gather 3 g (stretched s).y)) (hoodNbs 1)) ⟨0, 1, 0⟩ = 9 * (s - 1) := by
  obtain ⟨_, e, he, hyd, hz⟩ := bar_hood (s := s) hg
  have hdY : (bar.hood g (gather 3 g (stretched s).y)).dY ⟨0, 1, 0⟩ = s := by
    unfold Config.dY len
    rw [hyd]
    simp only [Matrix.cons_val_zero, Matrix.cons_val_one, Matrix.cons_val, mul_zero, add_zero]
    rw [show e * s * (e * s) = (e * e) * (s * s) by ring, he, one_mul, Real.sqrt_mul_self hs.le]
  have hext : (bar.hood g (gather 3 g (stretched s).y)).ext ⟨0, 1, 0⟩ = s - 1 := by
    have : (bar.hood g (gather 3 g (stretched s).y)).thermal = none := rfl
    unfold Config.ext
    rw [this]
    simp only
    rw [hdY, hz]
  refine ⟨hdY, ?_⟩
  have hm : (bar.hood g (gather 3 g (stretched s).y)).m 0 = 1 := rfl
  have hom : (bar.hood g (gather 3 g (stretched s).y)).om ⟨0, 1, 0⟩ = 1 := rfl
  have hd : (bar.hood g (gather 3 g (stretched s).y)).damage 0 = 0 := rfl
  have hv : (bar.hood g (gather 3 g (stretched s).y)).v 1 = 1 := rfl
  have hth : theta' (bar.hood g (gather 3 g (stretched s).y)) (hoodNbs 1) 0 = 3 * (s - 1) := by
    unfold theta' bondsAt
    rw [filter_hood, bar_bonds]
    unfold kap
    simp only [List.map_cons, List.map_nil, List.sum_cons, List.sum_nil]
    rw [hext, hz, hm, hom, hd, hv]
    ring
  unfold tension
  simp only
  rw [hth, hext, hz, hm, hom, hd, show bar.K = 1 from rfl, show bar.mu = 1 from rfl]
  ring

theorem bar_pulls {s : ℝ} (hs : 1 ≤ s) : ∀ h ∈ allHoods pair, bar.Pulls (stretched s).y h := by
  intro g hg f hf k hk0 hk
  obtain ⟨hl, e, he, hyd, hz⟩ := bar_hood (s := s) hg
  obtain ⟨hdY, hT⟩ := bar_tension (s := s) (by linarith) hg
  rw [elasticKernel_eq hf]
  have hk1 : k = 1 := by omega
  subst hk1
  have hyd' : comp (stretched s).y (g.getD 1 0) - comp (stretched s).y (g.getD 0 0) = ![e * s, 0, 0] := by
    rw [← hyd, ← comp_gather (by omega), ← comp_gather (by omega)]
    rfl
  rw [hyd']
  have hc : comp (hoodValue bar g (gather 3 g (stretched s).y)) 1 0 = -(9 * (s - 1) / s * (e * s)) := by
    unfold comp hoodValue
    rw [hl, show 2 - 1 = 1 from rfl, bar_bonds]
    simp only [List.map_cons, List.map_nil, List.sum_cons, List.sum_nil, add_zero]
    rw [hT, hdY, hyd]
    simp [pull, selfVol, Solid.hood, bar]
  rw [_root_.dotProduct, Fin.sum_univ_three, hc]
  have h0 : 0 ≤ 9 * (s - 1) := by linarith
  have hpos : (0 : ℝ) < s := by linarith
  simp only [Matrix.cons_val_zero, Matrix.cons_val_one, Matrix.cons_val, mul_zero, add_zero]
  rw [show -(9 * (s - 1) / s * (e * s)) * (e * s) = -(9 * (s - 1) / s * ((e * e) * (s * s))) by ring, he]
  have : 0 ≤ 9 * (s - 1) / s * (1 * (s * s)) := mul_nonneg (div_nonneg h0 hpos.le) (by positivity)
  linarith

theorem bar_tangent {s : ℝ} (hs : s ≠ 0) : ∃ R A, elasticTangent none (settings 1 1) .full bar (fun _ _ => .ub) (stretched s) fresh
    (pair.map Part.proc) (Sparse.zero R) = .ok A := by
  obtain ⟨R, A, _, hA⟩ := (C213_defined bar (settings 1 1) (fun _ _ => .ub) (stretched s) fresh pair pair_valid pair_nodup).2
    ⟨pair_joined, bar_sound hs⟩
  exact ⟨R, A, hA⟩

/-- **C217** Without this condition the statement is false: the tangent of a bar that is compressed to half its length is
not negative semidefinite. -/
theorem C217_compressed : ∃ R A, elasticTangent none (settings 1 1) .full bar (fun _ _ => .ub) (stretched (1 / 2)) fresh
    (pair.map Part.proc) (Sparse.zero R) = .ok A ∧ ∃ u : Nat → V3,
    0 < ∑ I ∈ Finset.range 2, ∑ a : Fin 3, u I a * ∑ J ∈ Finset.range 2, ∑ b : Fin 3, A.val (3 * I + a) (3 * J + b) * u J b := by
  obtain ⟨R, A, hA⟩ := bar_tangent (s := 1 / 2) (by norm_num)
  refine ⟨R, A, hA, fun J => if J = 1 then ![0, 1, 0] else 0, ?_⟩
  have hA' : adTangent .full (elasticAd bar) (stretched (1 / 2)) fresh _ _ = _ := hA
  obtain ⟨hex, _⟩ := tangent_eq (show (stretched (1 / 2)).vol = bar.v from rfl) pair_valid pair_nodup hA'
  rw [quadratic_eq (show (stretched (1 / 2)).vol = bar.v from rfl) pair_valid pair_nodup hA' pair_below]
  have key : ∀ g ∈ allHoods pair, hoodForm bar (stretched (1 / 2)).y g (fun J => if J = 1 then ![0, 1, 0] else 0)
      (fun J => if J = 1 then ![0, 1, 0] else 0) = 9 := by
    intro g hg
    obtain ⟨hl, e, he, hyd, hz⟩ := bar_hood (s := 1 / 2) hg
    obtain ⟨hdY, hT⟩ := bar_tension (s := 1 / 2) (by norm_num) hg
    have hb := elasticAd_iff.1 (hex g hg)
    unfold hoodForm
    rw [hl, show 2 - 1 = 1 from rfl] at *
    rw [form_eq hb]
    have hdd : ∃ c : ℝ, c * c = 1 ∧ pulled g (fun J => if J = 1 then ![0, 1, 0] else 0) 1 -
        pulled g (fun J => if J = 1 then ![0, 1, 0] else 0) 0 = (![0, c, 0] : V3) := by
      rw [pair_hoods] at hg
      simp only [List.mem_cons, List.not_mem_nil, or_false] at hg
      rcases hg with rfl | rfl
      · exact ⟨1, by ring, by simp [pulled]⟩
      · exact ⟨-1, by ring, by simp [pulled]⟩
    obtain ⟨c, hc, hdd⟩ := hdd
    have hr : rate (bar.hood g (gather 3 g (stretched (1 / 2)).y)) (pulled g fun J => if J = 1 then ![0, 1, 0] else 0) ⟨0, 1, 0⟩ = 0 := by
      unfold rate
      simp only
      rw [hdd, hyd]
      simp [_root_.dotProduct, Fin.sum_univ_three]
    have ht : thetaRate (bar.hood g (gather 3 g (stretched (1 / 2)).y)) (hoodNbs 1)
        (pulled g fun J => if J = 1 then ![0, 1, 0] else 0) 0 = 0 := by
      unfold thetaRate bondsAt
      rw [filter_hood, bar_bonds]
      simp only [List.map_cons, List.map_nil, List.sum_cons, List.sum_nil]
      rw [hr]
      ring
    rw [ht, bar_bonds]
    simp only [List.map_cons, List.map_nil, List.sum_cons, List.sum_nil]
    rw [hr, hT, hdY, hdd]
    have hv : ∀ p, (bar.hood g (gather 3 g (stretched (1 / 2)).y)).v p = 1 := fun _ => rfl
    rw [hv, hv, _root_.dotProduct, Fin.sum_univ_three]
    simp only [Matrix.cons_val_zero, Matrix.cons_val_one, Matrix.cons_val, hc]
    norm_num
  rw [List.map_congr_left key, pair_hoods]
  norm_num

/-! The hypotheses are met by the stretched bar. -/

example : ∃ R A, elasticTangent none (settings 1 1) .full bar (fun _ _ => .ub) (stretched 3) fresh
    (pair.map Part.proc) (Sparse.zero R) = .ok A ∧ (∀ r c, A.val r c = A.val c r) ∧
    ∀ r, ∑ J ∈ Finset.range 2, ∑ b : Fin 3, A.val r (3 * J + b) * (![1, 2, 3] : V3) b = 0 := by
  obtain ⟨R, A, hA⟩ := bar_tangent (s := 3) (by norm_num)
  exact ⟨R, A, hA, C215_symmetric bar _ _ _ rfl _ _ pair_valid pair_nodup R A hA,
    fun r => (C216_translations bar _ _ _ rfl _ _ pair_valid pair_nodup R A hA 2 pair_below _ r).1⟩

example : ∃ R A f, elasticTangent none (settings 1 1) .full bar (fun _ _ => .ub) (stretched 3) fresh
    (pair.map Part.proc) (Sparse.zero R) = .ok A ∧ internalForce (elasticKernel bar) (stretched 3).y (stretched 3).v (allHoods pair) = .ok f ∧
    (!![0, 1, 0; -1, 0, 0; 0, 0, 0] : Matrix (Fin 3) (Fin 3) ℝ)ᵀ = -!![0, 1, 0; -1, 0, 0; 0, 0, 0] := by
  obtain ⟨R, A, hA⟩ := bar_tangent (s := 3) (by norm_num)
  obtain ⟨f, hf, _⟩ := C213_exact_derivative bar _ _ _ _ _ pair_valid pair_nodup R A hA 0 0
  have := hf.self_of_nhds
  rw [show bump (stretched 3).y 0 0 = (stretched 3).y by simp [bump]] at this
  refine ⟨R, A, f 0, hA, this, ?_⟩
  ext i j
  fin_cases i <;> fin_cases j <;> simp

example : ∃ R A, elasticTangent none (settings 1 1) .full bar (fun _ _ => .ub) (stretched 3) fresh
    (pair.map Part.proc) (Sparse.zero R) = .ok A ∧ ∀ u : Nat → V3,
    ∑ I ∈ Finset.range 2, ∑ a : Fin 3, u I a * ∑ J ∈ Finset.range 2, ∑ b : Fin 3, A.val (3 * I + a) (3 * J + b) * u J b ≤ 0 := by
  obtain ⟨R, A, hA⟩ := bar_tangent (s := 3) (by norm_num)
  exact ⟨R, A, hA, C217_stable bar bar_physical _ _ _ rfl _ _ pair_valid pair_nodup bar_weighed (bar_pulls (by norm_num)) R A hA 2 pair_below⟩

end Verif.Fad
