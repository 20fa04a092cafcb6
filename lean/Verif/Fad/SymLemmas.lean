import Verif.Fad.Props

/-! The tangent of a neighborhood as a bilinear form. -/

noncomputable section

namespace Verif.Fad

open Verif Verif.Neigh Verif.Mech Verif.Tangent Verif.Energy Verif.Lps
open scoped Classical Topology Matrix

/-! ### The derivative of the forces in a direction -/

/-- The rate of the tension of a bond. -/
def tensionRate (C : Config) (K mu : ℝ) (nbs : List (List Nat)) (d : Nat → V3) (b : Bond) : ℝ :=
  (1 - C.damage b.b) * (C.om b * thetaRate C nbs d b.i * (3 * K / C.m b.i - 15 * mu / C.m b.i / 3) * C.zeta b +
    (1 - C.damage b.b) * C.om b * (15 * mu / C.m b.i) * rate C d b)

/-- The rate of the pair force of a bond. -/
def forceRate (C : Config) (K mu : ℝ) (nbs : List (List Nat)) (d : Nat → V3) (b : Bond) : V3 :=
  ((tensionRate C K mu nbs d b * C.dY b - tension C K mu (theta' C nbs) b * rate C d b) / C.dY b ^ 2) • C.yd b +
    (tension C K mu (theta' C nbs) b / C.dY b) • (d b.j - d b.i)

theorem bond_deriv {C : Config} (K mu : ℝ) {nbs : List (List Nat)} (d : Nat → V3) (h : ∀ b ∈ bondsOf nbs, C.dY b ≠ 0)
    {b : Bond} (hb : b ∈ bondsOf nbs) (c : Fin 3) :
    HasDerivAt (fun s => ((tension (shifted C d s) K mu (theta' (shifted C d s) nbs) b / (shifted C d s).dY b) •
      (shifted C d s).yd b) c) (forceRate C K mu nbs d b c) 0 := by
  have ht := theta_deriv (C := C) (nbs := nbs) d b.i h
  have he := ext_deriv C d b (h b hb)
  have hT : HasDerivAt (fun s => tension (shifted C d s) K mu (theta' (shifted C d s) nbs) b) (tensionRate C K mu nbs d b) 0 :=
    ((((ht.const_mul (C.om b)).mul_const (3 * K / C.m b.i - 15 * mu / C.m b.i / 3)).mul_const (C.zeta b)).add
      (he.const_mul ((1 - C.damage b.b) * C.om b * (15 * mu / C.m b.i)))).const_mul (1 - C.damage b.b)
  have hyd : HasDerivAt (fun s => (shifted C d s).yd b c) ((d b.j - d b.i) c) 0 := by
    have e : ∀ s : ℝ, (shifted C d s).yd b c = C.yd b c + s * (d b.j - d b.i) c := by
      intro s
      simp only [Config.yd, shifted, Pi.sub_apply, Pi.add_apply, Pi.smul_apply, smul_eq_mul]
      ring
    simp only [e]
    simpa using ((hasDerivAt_id (0 : ℝ)).mul_const ((d b.j - d b.i) c)).const_add (C.yd b c)
  have hY : HasDerivAt (fun s => (shifted C d s).dY b) (rate C d b) 0 := by
    have hl := len_deriv (C.yd b) (d b.j - d b.i) (h b hb)
    have e : ∀ s : ℝ, (shifted C d s).dY b = len (C.yd b + s • (d b.j - d b.i)) := by
      intro s
      unfold Config.dY Config.yd shifted
      congr 1
      simp only
      module
    simp only [e]
    exact hl
  have e0 : shifted C d 0 = C := by
    unfold shifted
    simp
  have := (hT.div hY (by rw [e0]; exact h b hb)).mul hyd
  refine this.congr_deriv ?_
  simp only [Pi.div_apply, e0, forceRate, Pi.add_apply, Pi.smul_apply, smul_eq_mul]

theorem comp_bump (y : Nat → ℝ) (c : Nat) (s : ℝ) (p : Nat) : comp (bump y c s) p = comp y p + s • comp (fun k => if k = c then 1 else 0) p := by
  funext a
  unfold comp bump
  by_cases h : 3 * p + (a : Nat) = c
  · subst h
    simp
  · simp [Function.update_of_ne h, h]

/-- The field that is one in one component and zero in all others. -/
def single (c : Nat) : Nat → V3 := comp fun k => if k = c then 1 else 0

theorem single_apply (c p : Nat) (a : Fin 3) : single c p a = if 3 * p + (a : Nat) = c then 1 else 0 := rfl

theorem hood_shifted (S : Solid) (gids : List Nat) (y : Nat → ℝ) (c : Nat) (s : ℝ) :
    S.hood gids (bump y c s) = shifted (S.hood gids y) (single c) s := by
  unfold Solid.hood shifted
  simp only [Config.mk.injEq, true_and, and_true]
  funext p
  exact comp_bump y c s p

/-- The derivatives computed in a neighborhood. -/
theorem local_eq {S : Solid} {gids : List Nat} {y : Nat → ℝ} {f : Nat → Num} (h : elasticAd S gids y = some f) (r c : Nat) :
    (f r).dx c = ((bondsOf (hoodNbs (gids.length - 1))).map fun b => pull (selfVol (S.hood gids y)) (nbrVol (S.hood gids y)) (r / 3)
      (b, forceRate (S.hood gids y) S.K S.mu (hoodNbs (gids.length - 1)) (single c) b)).sum ⟨r % 3, Nat.mod_lt _ (by omega)⟩ := by
  have h1 := (elastic_lifts h c 0).2 r
  have hb := elasticAd_iff.1 ⟨f, h⟩
  refine h1.unique ?_
  unfold hoodValue
  simp only [hood_shifted]
  apply list_deriv_map
  intro b hb'
  exact pull_deriv (vi := selfVol (S.hood gids y)) (vj := nbrVol (S.hood gids y)) (k := r / 3) (b := b) (bond_deriv S.K S.mu (single c) (fun b hb' => (hb b hb').2) hb' _)

/-! ### The form -/

/-- The tangent as a bilinear form on the points of a neighborhood. -/
def form (C : Config) (K mu : ℝ) (nbs : List (List Nat)) (w d : Nat → V3) : ℝ :=
  -((bondsOf nbs).map fun b => C.v b.i * C.v b.j * ((w b.j - w b.i) ⬝ᵥ forceRate C K mu nbs d b)).sum

/-- The field at the points of a neighborhood. -/
def pulled (h : List Nat) (u : Nat → V3) (p : Nat) : V3 := u (h.getD p 0)

/-- The form of a neighborhood, for fields over all points. -/
def hoodForm (S : Solid) (Y : Nat → ℝ) (h : List Nat) (w d : Nat → V3) : ℝ :=
  form (S.hood h (gather 3 h Y)) S.K S.mu (hoodNbs (h.length - 1)) (pulled h w) (pulled h d)

theorem sum_congr' {l : List Bond} {f g : Bond → ℝ} (h : ∀ b ∈ l, f b = g b) : (l.map f).sum = (l.map g).sum := by
  rw [List.map_congr_left h]

theorem bond_lt {h : List Nat} (h0 : 0 < h.length) {b : Bond} (hb : b ∈ bondsOf (hoodNbs (h.length - 1))) :
    b.i < h.length ∧ b.j < h.length := by
  obtain ⟨h1, h2, h3⟩ := hood_bond hb
  exact ⟨by omega, by omega⟩

theorem forceRate_congr {C : Config} {K mu : ℝ} {nbs : List (List Nat)} {d d' : Nat → V3} (h : ∀ b ∈ bondsOf nbs, d b.i = d' b.i ∧
    d b.j = d' b.j) {b : Bond} (hb : b ∈ bondsOf nbs) : forceRate C K mu nbs d b = forceRate C K mu nbs d' b := by
  have hr : ∀ b ∈ bondsOf nbs, rate C d b = rate C d' b := by
    intro b hb
    obtain ⟨h1, h2⟩ := h b hb
    unfold rate
    rw [h1, h2]
  have ht : ∀ p, thetaRate C nbs d p = thetaRate C nbs d' p := by
    intro p
    unfold thetaRate
    apply sum_congr'
    intro b hb
    rw [hr b (List.mem_filter.1 hb).1]
  obtain ⟨h1, h2⟩ := h b hb
  unfold forceRate tensionRate
  rw [hr b hb, ht, h1, h2]

theorem forceRate_zero {C : Config} {K mu : ℝ} {nbs : List (List Nat)} {d : Nat → V3} (h : ∀ b ∈ bondsOf nbs, d b.j = d b.i)
    {b : Bond} (hb : b ∈ bondsOf nbs) : forceRate C K mu nbs d b = 0 := by
  have hr : ∀ b ∈ bondsOf nbs, rate C d b = 0 := by
    intro b hb
    unfold rate
    rw [h b hb]
    simp
  have ht : ∀ p, thetaRate C nbs d p = 0 := by
    intro p
    unfold thetaRate
    apply List.sum_eq_zero
    intro x hx
    obtain ⟨b, hb, rfl⟩ := List.mem_map.1 hx
    rw [hr b (List.mem_filter.1 hb).1]
    simp
  unfold forceRate tensionRate
  rw [hr b hb, ht, h b hb]
  simp

/-- A field of one component tests the force on that component. -/
theorem row_eq {S : Solid} {Y : Nat → ℝ} {h : List Nat} (h0 : 0 < h.length) (hn : h.Nodup) (R : Nat) (G : Bond → V3) :
    -((bondsOf (hoodNbs (h.length - 1))).map fun b => (S.hood h (gather 3 h Y)).v b.i * (S.hood h (gather 3 h Y)).v b.j *
      ((pulled h (single R) b.j - pulled h (single R) b.i) ⬝ᵥ G b)).sum =
    if R / 3 ∈ h then S.v (R / 3) * ((bondsOf (hoodNbs (h.length - 1))).map fun b =>
      pull (selfVol (S.hood h (gather 3 h Y))) (nbrVol (S.hood h (gather 3 h Y))) (h.idxOf (R / 3)) (b, G b)).sum
        ⟨R % 3, Nat.mod_lt _ (by omega)⟩ else 0 := by
  have hs : ∀ p < h.length, ∀ a, pulled h (single R) p a = if h.getD p 0 = R / 3 ∧ (a : Nat) = R % 3 then 1 else 0 := by
    intro p _ a
    unfold pulled
    rw [single_apply]
    have : 3 * h.getD p 0 + (a : Nat) = R ↔ h.getD p 0 = R / 3 ∧ (a : Nat) = R % 3 := by
      have := a.isLt
      omega
    by_cases hc : h.getD p 0 = R / 3 ∧ (a : Nat) = R % 3
    · rw [if_pos hc, if_pos (this.2 hc)]
    · rw [if_neg hc, if_neg fun x => hc (this.1 x)]
  by_cases hR : R / 3 ∈ h
  · rw [if_pos hR]
    have hi := List.idxOf_lt_length_iff.2 hR
    have hidx : ∀ p < h.length, (h.getD p 0 = R / 3 ↔ p = h.idxOf (R / 3)) := by
      intro p hp
      rw [getD_lt hp]
      constructor
      · intro e
        rw [← e]
        exact (hn.idxOf_getElem p hp).symm
      · intro e
        subst e
        exact List.getElem_idxOf hi
    have hdot : ∀ p < h.length, ∀ g : V3, pulled h (single R) p ⬝ᵥ g =
        if p = h.idxOf (R / 3) then g ⟨R % 3, Nat.mod_lt _ (by omega)⟩ else 0 := by
      intro p hp g
      unfold _root_.dotProduct
      simp only [hs p hp, hidx p hp]
      by_cases hc : p = h.idxOf (R / 3)
      · simp only [hc, true_and, if_true]
        rw [Finset.sum_eq_single ⟨R % 3, Nat.mod_lt _ (by omega)⟩]
        · simp
        · intro a _ ha
          rw [if_neg, zero_mul]
          intro e
          exact ha (Fin.ext e)
        · simp
      · simp [hc]
    have hbs : ∀ b ∈ bondsOf (hoodNbs (h.length - 1)), b.i < h.length ∧ b.j < h.length := fun b hb => bond_lt h0 hb
    have hv : (S.hood h (gather 3 h Y)).v (h.idxOf (R / 3)) = S.v (R / 3) := by
      show S.v (h.getD _ 0) = _
      rw [getD_lt hi, List.getElem_idxOf hi]
    generalize bondsOf (hoodNbs (h.length - 1)) = l at hbs
    induction l with
    | nil => simp
    | cons b l ih =>
      have ih := ih fun b hb => hbs b (List.mem_cons_of_mem _ hb)
      obtain ⟨h1, h2⟩ := hbs b List.mem_cons_self
      rw [List.map_cons, List.map_cons, List.sum_cons, List.sum_cons, neg_add, ih, Pi.add_apply, mul_add]
      congr 1
      rw [sub_dotProduct, hdot _ h1, hdot _ h2, ← hv]
      unfold pull selfVol nbrVol
      simp only [Pi.sub_apply]
      by_cases e1 : b.i = h.idxOf (R / 3) <;> by_cases e2 : b.j = h.idxOf (R / 3) <;> simp [e1, e2] <;> ring
  · rw [if_neg hR, neg_eq_zero]
    apply List.sum_eq_zero
    intro x hx
    obtain ⟨b, hb, rfl⟩ := List.mem_map.1 hx
    obtain ⟨h1, h2⟩ := bond_lt h0 hb
    have hz : ∀ p < h.length, pulled h (single R) p = 0 := by
      intro p hp
      funext a
      rw [hs p hp, if_neg]
      · rfl
      · rintro ⟨e, _⟩
        apply hR
        rw [← e, getD_lt hp]
        exact List.getElem_mem _
    rw [hz _ h1, hz _ h2]
    simp

theorem pulled_slot {h : List Nat} (hn : h.Nodup) {C : Nat} (hC : C / 3 ∈ h) {p : Nat} (hp : p < h.length) :
    single (slot 3 h C) p = pulled h (single C) p := by
  funext a
  unfold pulled
  rw [single_apply, single_apply]
  have hi := List.idxOf_lt_length_iff.2 hC
  have hidx : h.getD p 0 = C / 3 ↔ p = h.idxOf (C / 3) := by
    rw [getD_lt hp]
    constructor
    · intro e
      rw [← e]
      exact (hn.idxOf_getElem p hp).symm
    · intro e
      subst e
      exact List.getElem_idxOf hi
  have e1 : 3 * p + (a : Nat) = slot 3 h C ↔ p = h.idxOf (C / 3) ∧ (a : Nat) = C % 3 := by
    unfold slot
    have := a.isLt
    omega
  have e2 : 3 * h.getD p 0 + (a : Nat) = C ↔ h.getD p 0 = C / 3 ∧ (a : Nat) = C % 3 := by
    have := a.isLt
    omega
  have : (3 * p + (a : Nat) = slot 3 h C) ↔ (3 * h.getD p 0 + (a : Nat) = C) := by rw [e1, e2, hidx]
  simp only [this]

/-- The entries are those of the form. -/
theorem adEntry_eq {S : Solid} {F : Fields} (hvol : F.vol = S.v) {h : List Nat} (h0 : 0 < h.length) (hn : h.Nodup)
    (hs : ∃ f, elasticAd S h (gather 3 h F.y) = some f) (R C : Nat) :
    adEntry (elasticAd S) F h R C = hoodForm S F.y h (single R) (single C) := by
  obtain ⟨f, hf⟩ := hs
  unfold hoodForm form
  rw [row_eq h0 hn]
  unfold adEntry
  by_cases hR : R / 3 ∈ h
  · rw [if_pos hR]
    by_cases hC : C / 3 ∈ h
    · rw [if_pos ⟨hR, hC⟩, hf]
      simp only
      rw [local_eq hf, hvol, mul_comm]
      congr 1
      have e1 : slot 3 h R / 3 = h.idxOf (R / 3) := slot_div (by omega) h R
      have e2 : slot 3 h R % 3 = R % 3 := slot_mod 3 h R
      simp only [e1, e2]
      rw [List.map_congr_left]
      intro b hb
      rw [forceRate_congr (d' := pulled h (single C)) _ hb]
      intro b hb
      obtain ⟨h1, h2⟩ := bond_lt h0 hb
      exact ⟨pulled_slot hn hC h1, pulled_slot hn hC h2⟩
    · rw [if_neg fun h => hC h.2]
      have hz : ∀ p < h.length, pulled h (single C) p = 0 := by
        intro p hp
        funext a
        unfold pulled
        rw [single_apply, if_neg]
        · rfl
        · intro e
          apply hC
          have : C / 3 = h.getD p 0 := by have := a.isLt; omega
          rw [this, getD_lt hp]
          exact List.getElem_mem _
      have hl : ∀ b ∈ bondsOf (hoodNbs (h.length - 1)), pull (selfVol (S.hood h (gather 3 h F.y))) (nbrVol (S.hood h (gather 3 h F.y)))
          (h.idxOf (R / 3)) (b, forceRate (S.hood h (gather 3 h F.y)) S.K S.mu (hoodNbs (h.length - 1)) (pulled h (single C)) b) = 0 := by
        intro b hb
        rw [forceRate_zero _ hb]
        · simp [pull]
        · intro b hb
          obtain ⟨h1, h2⟩ := bond_lt h0 hb
          rw [hz _ h1, hz _ h2]
      rw [List.map_congr_left hl]
      simp
  · rw [if_neg hR, if_neg fun h => hR h.1]

/-! ### Symmetry -/

theorem form_eq {C : Config} {K mu : ℝ} {n : Nat} (h : ∀ b ∈ bondsOf (hoodNbs n), C.m b.i ≠ 0 ∧ C.dY b ≠ 0) (w d : Nat → V3) :
    form C K mu (hoodNbs n) w d = -(C.v 0 * (K - 5 * mu / 3) * thetaRate C (hoodNbs n) d 0 * thetaRate C (hoodNbs n) w 0 +
      ((bondsOf (hoodNbs n)).map fun b => C.v 0 * (15 * mu / C.m 0) * ((1 - C.damage b.b) * kap C b) * (rate C d b * rate C w b) +
        C.v 0 * C.v b.j * (tension C K mu (theta' C (hoodNbs n)) b / C.dY b) *
          ((w b.j - w b.i) ⬝ᵥ (d b.j - d b.i) - rate C d b * rate C w b)).sum) := by
  unfold form
  have hth : C.v 0 * (K - 5 * mu / 3) * thetaRate C (hoodNbs n) d 0 * thetaRate C (hoodNbs n) w 0 =
      ((bondsOf (hoodNbs n)).map fun b => C.v 0 * (K - 5 * mu / 3) * thetaRate C (hoodNbs n) d 0 *
        (3 * kap C b * C.zeta b * rate C w b / C.m 0)).sum := by
    rw [sum_scale]
    congr 1
    unfold thetaRate bondsAt
    rw [filter_hood]
  rw [hth, ← List.sum_map_add]
  congr 1
  apply sum_congr'
  intro b hb
  obtain ⟨hm, hY⟩ := h b hb
  obtain ⟨hi, _⟩ := hood_bond hb
  rw [hi] at hm
  have hw : (w b.j - w b.i) ⬝ᵥ C.yd b = rate C w b * C.dY b := by
    unfold rate
    rw [dotProduct_comm]
    field_simp
  unfold forceRate
  rw [dotProduct_add, dotProduct_smul, dotProduct_smul, smul_eq_mul, smul_eq_mul, hw]
  unfold tensionRate kap
  rw [hi]
  field_simp
  ring

theorem form_symm {C : Config} {K mu : ℝ} {n : Nat} (h : ∀ b ∈ bondsOf (hoodNbs n), C.m b.i ≠ 0 ∧ C.dY b ≠ 0) (w d : Nat → V3) :
    form C K mu (hoodNbs n) w d = form C K mu (hoodNbs n) d w := by
  rw [form_eq h, form_eq h]
  congr 2
  · ring
  · apply sum_congr'
    intro b _
    rw [dotProduct_comm (w b.j - w b.i), mul_comm (rate C d b)]

/-! ### Linearity -/

theorem form_sum {C : Config} {K mu : ℝ} {nbs : List (List Nat)} {ι : Type} (s : Finset ι) (a : ι → ℝ) (w : ι → Nat → V3) (d : Nat → V3) :
    form C K mu nbs (fun p => ∑ q ∈ s, a q • w q p) d = ∑ q ∈ s, a q * form C K mu nbs (w q) d := by
  unfold form
  simp only [mul_neg, Finset.sum_neg_distrib]
  congr 1
  induction bondsOf nbs with
  | nil => simp
  | cons b l ih =>
    simp only [List.map_cons, List.sum_cons, mul_add, Finset.sum_add_distrib]
    rw [ih]
    congr 1
    rw [← Finset.sum_sub_distrib, sum_dotProduct, Finset.mul_sum]
    apply Finset.sum_congr rfl
    intro q _
    rw [← smul_sub, smul_dotProduct, smul_eq_mul]
    ring

theorem form_congr {C : Config} {K mu : ℝ} {nbs : List (List Nat)} {w w' d d' : Nat → V3} (hw : ∀ b ∈ bondsOf nbs, w b.i = w' b.i ∧
    w b.j = w' b.j) (hd : ∀ b ∈ bondsOf nbs, d b.i = d' b.i ∧ d b.j = d' b.j) : form C K mu nbs w d = form C K mu nbs w' d' := by
  unfold form
  congr 1
  apply sum_congr'
  intro b hb
  rw [forceRate_congr hd hb, (hw b hb).1, (hw b hb).2]

/-- Components of the points below `N`. -/
abbrev comps (N : Nat) : Finset (Nat × Fin 3) := Finset.range N ×ˢ Finset.univ

theorem sum_single {N J : Nat} (hJ : J < N) (u : Nat → V3) : ∑ q ∈ comps N, u q.1 q.2 • single (3 * q.1 + q.2) J = u J := by
  funext a
  rw [Finset.sum_apply]
  rw [Finset.sum_eq_single (J, a)]
  · simp [single_apply]
  · rintro ⟨J', a'⟩ _ hne
    rw [Pi.smul_apply, single_apply, if_neg, smul_zero]
    intro e
    apply hne
    have h1 := a.isLt
    have h2 := a'.isLt
    simp only at e
    have : J' = J := by omega
    subst this
    have : a' = a := Fin.ext (by omega)
    rw [this]
  · intro hnot
    exact absurd (Finset.mem_product.2 ⟨Finset.mem_range.2 hJ, Finset.mem_univ _⟩) hnot

theorem hoodForm_sum {S : Solid} {Y : Nat → ℝ} {h : List Nat} (h0 : 0 < h.length) {N : Nat} (hN : ∀ g ∈ h, g < N) (u d : Nat → V3) :
    ∑ q ∈ comps N, u q.1 q.2 * hoodForm S Y h (single (3 * q.1 + q.2)) d = hoodForm S Y h u d := by
  unfold hoodForm
  rw [← form_sum (comps N) (fun q => u q.1 q.2) (fun q => pulled h (single (3 * q.1 + q.2)))]
  apply form_congr
  · intro b hb
    obtain ⟨h1, h2⟩ := bond_lt h0 hb
    have key : ∀ p < h.length, ∑ q ∈ comps N, u q.1 q.2 • pulled h (single (3 * q.1 + q.2)) p = pulled h u p := by
      intro p hp
      exact sum_single (hN _ (by rw [getD_lt hp]; exact List.getElem_mem _)) u
    exact ⟨key _ h1, key _ h2⟩
  · exact fun _ _ => ⟨rfl, rfl⟩

theorem hoodForm_symm {S : Solid} {Y : Nat → ℝ} {h : List Nat} (hs : ∃ f, elasticAd S h (gather 3 h Y) = some f) (w d : Nat → V3) :
    hoodForm S Y h w d = hoodForm S Y h d w := form_symm (elasticAd_iff.1 hs) _ _

theorem hoodForm_sum_right {S : Solid} {Y : Nat → ℝ} {h : List Nat} (h0 : 0 < h.length) {N : Nat} (hN : ∀ g ∈ h, g < N)
    (hs : ∃ f, elasticAd S h (gather 3 h Y) = some f) (w u : Nat → V3) :
    ∑ q ∈ comps N, hoodForm S Y h w (single (3 * q.1 + q.2)) * u q.1 q.2 = hoodForm S Y h w u := by
  rw [hoodForm_symm hs w u, ← hoodForm_sum h0 hN]
  apply Finset.sum_congr rfl
  intro q _
  rw [hoodForm_symm hs, mul_comm]

/-- The entries of the assembled tangent. -/
theorem tangent_eq {E : Solid} {F : Fields} (hvol : F.vol = E.v) {S : Scratch} {parts : List Part}
    (hv : ∀ p ∈ parts, p.Valid) (hn : ∀ h ∈ allHoods parts, h.Nodup) {R : Nat → Finset Nat} {A : Sparse}
    (h : adTangent .full (elasticAd E) F S (parts.map Part.proc) (Sparse.zero R) = .ok A) :
    (∀ g ∈ allHoods parts, ∃ f, elasticAd E g (gather 3 g F.y) = some f) ∧
    ∀ r c, A.val r c = ((allHoods parts).map fun g => hoodForm E F.y g (single r) (single c)).sum := by
  obtain ⟨h1, h2⟩ := adTangent_ok (kind := .full) hv hn h
  refine ⟨h1, fun r c => ?_⟩
  rw [h2]
  simp only [Sparse.zero, zero_add]
  congr 1
  apply List.map_congr_left
  intro g hg
  rw [if_pos (show Kept .full r c from trivial)]
  exact adEntry_eq hvol (allHoods_pos hv hg) (hn g hg) (h1 g hg) r c

theorem list_sum_comm {ι : Type} (s : Finset ι) (l : List (List Nat)) (f : ι → List Nat → ℝ) :
    ∑ q ∈ s, (l.map (f q)).sum = (l.map fun g => ∑ q ∈ s, f q g).sum := by
  induction l with
  | nil => simp
  | cons g l ih =>
    simp only [List.map_cons, List.sum_cons, Finset.sum_add_distrib]
    rw [ih]

theorem row_apply {E : Solid} {F : Fields} (hvol : F.vol = E.v) {S : Scratch} {parts : List Part}
    (hv : ∀ p ∈ parts, p.Valid) (hn : ∀ h ∈ allHoods parts, h.Nodup) {R : Nat → Finset Nat} {A : Sparse}
    (h : adTangent .full (elasticAd E) F S (parts.map Part.proc) (Sparse.zero R) = .ok A) {N : Nat}
    (hN : ∀ h ∈ allHoods parts, ∀ g ∈ h, g < N) (u : Nat → V3) (r : Nat) :
    ∑ J ∈ Finset.range N, ∑ b : Fin 3, A.val r (3 * J + b) * u J b =
      ((allHoods parts).map fun g => hoodForm E F.y g (single r) u).sum := by
  obtain ⟨h1, h2⟩ := tangent_eq hvol hv hn h
  rw [← Finset.sum_product' (f := fun J b => A.val r (3 * J + (b : Fin 3).val) * u J b)]
  have e : ∀ q : Nat × Fin 3, A.val r (3 * q.1 + q.2) * u q.1 q.2 =
      ((allHoods parts).map fun g => hoodForm E F.y g (single r) (single (3 * q.1 + q.2)) * u q.1 q.2).sum := by
    intro q
    rw [h2, List.sum_map_mul_right]
  simp only [e]
  rw [list_sum_comm]
  congr 1
  apply List.map_congr_left
  intro g hg
  exact hoodForm_sum_right (allHoods_pos hv hg) (hN g hg) (h1 g hg) _ _

end Verif.Fad
