import Verif.Lps.Spec
import Verif.Energy.Lemmas
import Verif.Pals.Lemmas

/-! Lemmas for C135 to C137. -/

noncomputable section

namespace Verif.Lps

open Verif Verif.Neigh Verif.Mech Verif.Energy
open scoped Classical

/-- The pair force. -/
def pair (C : Config) (K mu : ℝ) (S : Stored) (theta : Nat → ℝ) (b : Bond) : Outcome V3 :=
  if S.m b.i = 0 ∨ normSquared C b = 0 then .ub
  else .ok fun c => (1 - C.damage b.b) * term C K mu S theta b b.i c

theorem forceLoop_cells (C : Config) (K mu : ℝ) (S : Stored) (theta : Nat → ℝ) (bs : List Bond) (F : Nat → V3) :
    forceLoop C .cells K mu S theta bs F = scatter (selfVol C) (nbrVol C) (pair C K mu S theta) bs F := by
  induction bs generalizing F with
  | nil => rfl
  | cons b bs ih =>
    rw [forceLoop, scatter, bondStep, pair]
    by_cases h : S.m b.i = 0 ∨ normSquared C b = 0
    · rw [if_pos h, if_pos h]
    · rw [if_neg h, if_neg h]
      exact ih _

theorem forceLoop_partials (C : Config) (s n : Nat → ℝ) (K mu : ℝ) (S : Stored) (theta : Nat → ℝ) (bs : List Bond)
    (F : Nat → V3) : forceLoop C (.partials s n) K mu S theta bs F =
      scatter (fun b => s b.b) (fun b => n b.b) (pair C K mu S theta) bs F := by
  induction bs generalizing F with
  | nil => rfl
  | cons b bs ih =>
    rw [forceLoop, scatter, bondStep, pair]
    by_cases h : S.m b.i = 0 ∨ normSquared C b = 0
    · rw [if_pos h, if_pos h]
    · rw [if_neg h, if_neg h]
      exact ih _

/-- The scalar product of a bond with a relative displacement. -/
def along (C : Config) (w : Nat → V3) (b : Bond) : ℝ := xd C b ⬝ᵥ (w b.j - w b.i)

/-- The displacements. -/
def disp (C : Config) : Nat → V3 := fun k => C.y k - C.x k

theorem dotProduct_eq (C : Config) (b : Bond) : dotProduct C b = along C (disp C) b := by
  simp only [dotProduct, along, disp, _root_.dotProduct, Fin.sum_univ_three, ud, Pi.sub_apply]

theorem normSquared_eq (C : Config) (b : Bond) : normSquared C b = C.zeta b ^ 2 := by
  rw [sq]
  exact (Pals.len_sq (xd C b)).symm

/-- The pair force, divided by the bond. -/
def coef (C : Config) (K mu : ℝ) (S : Stored) (theta : Nat → ℝ) (b : Bond) : ℝ :=
  (1 - C.damage b.b) * ((9 * K - 15 * mu) * S.infl b.b * theta b.i / (3 * S.m b.i) +
    15 * mu * S.infl b.b / (S.m b.i * C.zeta b ^ 2) * along C (disp C) b)

theorem pair_eq {C : Config} {K mu : ℝ} {S : Stored} {theta : Nat → ℝ} {b : Bond} {g : V3}
    (h : pair C K mu S theta b = .ok g) : S.m b.i ≠ 0 ∧ C.zeta b ≠ 0 ∧ g = coef C K mu S theta b • xd C b := by
  unfold pair at h
  split at h
  · cases h
  · next hn =>
    push Not at hn
    refine ⟨hn.1, fun h0 => hn.2 (by rw [normSquared_eq, h0]; ring), ?_⟩
    rw [← Outcome.ok.inj h]
    funext c
    simp only [Pi.smul_apply, smul_eq_mul, term, coef, ← dotProduct_eq, dotProduct, ← normSquared_eq]
    ring

/-- Influence, intact part and volume of a bond. -/
def wt (C : Config) (S : Stored) (b : Bond) : ℝ := S.infl b.b * (1 - C.damage b.b) * C.v b.j

/-- The dilatation for the displacements `w`. -/
def dil (C : Config) (S : Stored) (nbs : List (List Nat)) (w : Nat → V3) (p : Nat) : ℝ :=
  3 / S.m p * ((bondsAt nbs p).map fun b => wt C S b * along C w b).sum

theorem dilatation_cells (C : Config) (S : Stored) (nbs : List (List Nat)) (p : Nat) :
    (if (bondsAt nbs p).length > 0 then dilatationSum C .cells S (bondsAt nbs p) * (3 / S.m p)
      else dilatationSum C .cells S (bondsAt nbs p)) = dil C S nbs (disp C) p := by
  have e : dilatationSum C .cells S (bondsAt nbs p) = ((bondsAt nbs p).map fun b => wt C S b * along C (disp C) b).sum := by
    unfold dilatationSum
    rw [Pals.foldl_add, zero_add]
    congr 1
    apply List.map_congr_left
    intro b _
    rw [dotProduct_eq, wt, weight]
    ring
  rw [e, dil]
  split
  · ring
  · next h =>
    have : bondsAt nbs p = [] := List.eq_nil_of_length_eq_zero (by omega)
    rw [this]
    simp

/-- What is known of an evaluation. -/
theorem evaluate_parts {C : Config} {K mu : ℝ} {S : Stored} {nbs : List (List Nat)} {ghost : (Nat → ℝ) → Nat → ℝ}
    {theta : Nat → ℝ} {F : Nat → V3} (h : evaluate C .cells K mu S nbs.length (encode nbs) ghost = .ok (theta, F)) :
    (∀ p < nbs.length, theta p = dil C S nbs (disp C) p) ∧ (∀ b ∈ bondsOf nbs, S.m b.i ≠ 0 ∧ C.zeta b ≠ 0) ∧
      Scattered (selfVol C) (nbrVol C) (fun b g => g = coef C K mu S theta b • xd C b) (bondsOf nbs) 0 F := by
  unfold evaluate precompute at h
  rw [visited_encode] at h
  simp only at h
  split at h
  · next th hth =>
    split at hth
    · cases hth
    · cases hth
      split at h
      · next G hG =>
        cases h
        unfold force at hG
        rw [visited_encode] at hG
        simp only at hG
        rw [forceLoop_cells] at hG
        have hs := scatter_scattered hG
        refine ⟨fun p hp => ?_, ?_, hs.mono fun b _ g hg => (pair_eq hg).2.2⟩
        · simp only [if_pos hp]
          exact dilatation_cells C S nbs p
        · obtain ⟨gs, h1, h2, _⟩ := hs
          intro b hb
          rw [← h1] at hb
          obtain ⟨x, hx, rfl⟩ := List.mem_map.1 hb
          exact ⟨(pair_eq (h2 x hx)).1, (pair_eq (h2 x hx)).2.1⟩
      · cases h
      · cases h
  · cases h
  · cases h

/-- The force at a point. -/
theorem scattered_at {vi vj : Bond → ℝ} {G : Bond → V3} {bs : List Bond} {F : Nat → V3}
    (h : Scattered vi vj (fun b g => g = G b) bs 0 F) (k : Nat) :
    F k = (bs.map fun b => pull vi vj k (b, G b)).sum := by
  obtain ⟨gs, h1, h2, h3⟩ := h
  rw [h3 k, ← h1, List.map_map, Pi.zero_apply, zero_add]
  congr 1
  apply List.map_congr_left
  intro x hx
  show pull vi vj k (x.1, x.2) = _
  rw [h2 x hx]
  rfl

theorem evaluate_force {C : Config} {K mu : ℝ} {S : Stored} {nbs : List (List Nat)} {ghost : (Nat → ℝ) → Nat → ℝ}
    {theta : Nat → ℝ} {F : Nat → V3} (h : evaluate C .cells K mu S nbs.length (encode nbs) ghost = .ok (theta, F))
    (k : Nat) : F k = ((bondsOf nbs).map fun b => pull (selfVol C) (nbrVol C) k
      (b, coef C K mu S (dil C S nbs (disp C)) b • xd C b)).sum := by
  obtain ⟨h1, _, h3⟩ := evaluate_parts h
  rw [scattered_at h3 k]
  congr 1
  apply List.map_congr_left
  intro b hb
  obtain ⟨ns, hp, _⟩ := mem_bondsOf hb
  rw [coef, h1 _ (List.getElem?_eq_some_iff.1 hp).1]
  rfl

theorem ready_bonds {C : Config} {S : Stored} {nbs : List (List Nat)} (hr : Ready C S nbs) :
    ∀ b ∈ bondsOf nbs, S.m b.i ≠ 0 ∧ C.zeta b ≠ 0 := by
  intro b hb
  obtain ⟨h1, h2⟩ := hr _ _ (mem_bondsOf hb)
  exact ⟨h1, fun h0 => h2 (sub_eq_zero.1 (len_eq_zero.1 h0))⟩

theorem evaluate_defined {C : Config} (K mu : ℝ) {S : Stored} {nbs : List (List Nat)}
    (h : ∀ b ∈ bondsOf nbs, S.m b.i ≠ 0 ∧ C.zeta b ≠ 0) (ghost : (Nat → ℝ) → Nat → ℝ) :
    ∃ theta F, evaluate C .cells K mu S nbs.length (encode nbs) ghost = .ok (theta, F) := by
  unfold evaluate precompute
  rw [visited_encode]
  simp only
  rw [if_neg (by
    rintro ⟨b, hb, h0⟩
    exact (h b hb).1 h0)]
  simp only
  generalize (fun p => if p < nbs.length then _ else ghost _ p : Nat → ℝ) = theta
  unfold force
  rw [visited_encode]
  simp only
  rw [forceLoop_cells]
  obtain ⟨F, hF⟩ := scatter_ok (vi := selfVol C) (vj := nbrVol C) (f := pair C K mu S theta) (bs := bondsOf nbs) 0
    (fun b hb => ⟨_, if_neg (by
      rintro (h0 | h0)
      · exact (h b hb).1 h0
      · rw [normSquared_eq] at h0
        exact (h b hb).2 (pow_eq_zero_iff two_ne_zero |>.1 h0))⟩)
  rw [hF]
  exact ⟨_, _, rfl⟩

/-! ### Set up -/

theorem storeInfluence_of {C : Config} {bs : List Bond} (hn : (bs.map (·.b)).Nodup) (f : Nat → ℝ) {b : Bond} (hb : b ∈ bs) :
    storeInfluence C bs f b.b = C.om b := by
  induction bs generalizing f with
  | nil => cases hb
  | cons c bs ih =>
    rw [List.map_cons, List.nodup_cons] at hn
    rcases List.mem_cons.1 hb with rfl | hb
    · have key : ∀ (l : List Bond) (g : Nat → ℝ), b.b ∉ l.map (·.b) → storeInfluence C l g b.b = g b.b := by
        intro l
        induction l with
        | nil => intro g _; rfl
        | cons d l ih' =>
          intro g hg
          rw [List.map_cons, List.mem_cons, not_or] at hg
          show storeInfluence C l (Function.update g d.b _) b.b = _
          rw [ih' _ hg.2, Function.update_of_ne hg.1]
      show storeInfluence C bs (Function.update f b.b _) b.b = _
      rw [key bs _ hn.1, Function.update_self]
      unfold Config.om Config.zeta
      congr 1
      unfold len
      congr 1
      simp only [Pi.sub_apply]
      ring
    · exact ih hn.2 _ hb

theorem setUp_spec {C : Config} {nbs : List (List Nat)} {S : Stored} (h : SetUp C nbs S) :
    (∀ b ∈ bondsOf nbs, S.infl b.b = C.om b) ∧
    ∀ p < nbs.length, S.m p = ((bondsAt nbs p).map fun b => C.om b * C.zeta b ^ 2 * C.v b.j).sum := by
  obtain ⟨S0, h⟩ := h
  unfold prepare at h
  rw [visited_encode] at h
  simp only at h
  cases h
  have hi : ∀ b ∈ bondsOf nbs, storeInfluence C (bondsOf nbs) S0.infl b.b = C.om b :=
    fun b hb => storeInfluence_of (bondsOf_nodup nbs) _ hb
  refine ⟨hi, fun p hp => ?_⟩
  simp only [if_pos hp]
  unfold weightedVolume
  simp only
  rw [Pals.foldl_add, zero_add]
  congr 1
  apply List.map_congr_left
  intro b hb
  rw [hi b (List.mem_filter.1 hb).1, sq, show C.zeta b * C.zeta b = _ from Pals.len_sq (xd C b)]
  rfl

/-! ### Power -/

theorem power_scattered {C : Config} {bs : List Bond} {t : Bond → ℝ} {F : Nat → V3} {N : Nat}
    (h : Scattered (selfVol C) (nbrVol C) (fun b g => g = t b • xd C b) bs 0 F)
    (hw : ∀ b ∈ bs, b.i < N ∧ b.j < N) (d : Nat → V3) :
    power C F d N = -(bs.map fun b => C.v b.j * t b * along C d b * C.v b.i).sum := by
  obtain ⟨gs, h1, h2, h3⟩ := h
  have h4 := sum_scattered_gen N (fun k => C.v k • dotL (d k)) h3 (fun x hx => by
    have : x.1 ∈ bs := by rw [← h1]; exact List.mem_map_of_mem hx
    exact hw _ this)
  have hpow : power C F d N = ∑ k ∈ Finset.range N, (C.v k • dotL (d k)) (F k) := rfl
  rw [hpow, h4, ← h1, List.map_map]
  simp only [Pi.zero_apply, map_zero, Finset.sum_const_zero, zero_add]
  rw [← neg_one_mul, ← List.sum_map_mul_left]
  congr 1
  apply List.map_congr_left
  intro x hx
  have e1 : ∀ w : V3, dotL w x.2 = t x.1 * (xd C x.1 ⬝ᵥ w) := by
    intro w
    rw [h2 x hx, map_smul, smul_eq_mul]
    rfl
  have ej : nbrVol C x.1 = C.v x.1.j := rfl
  have ei : selfVol C x.1 = C.v x.1.i := rfl
  simp only [Function.comp, LinearMap.smul_apply, e1, smul_eq_mul, along, dotProduct_sub, ei, ej]
  ring

/-- The power of the forces, point by point. -/
theorem power_eq {C : Config} {K mu : ℝ} {S : Stored} {nbs : List (List Nat)} {ghost : (Nat → ℝ) → Nat → ℝ}
    {theta : Nat → ℝ} {F : Nat → V3} (h : evaluate C .cells K mu S nbs.length (encode nbs) ghost = .ok (theta, F))
    (w : Nat → V3) {N : Nat} (hN : Within nbs N) :
    power C F w N = -∑ p ∈ Finset.range nbs.length,
      ((K - 5 * mu / 3) * dil C S nbs (disp C) p * dil C S nbs w p + 15 * mu / S.m p *
        ((bondsAt nbs p).map fun b => wt C S b * (along C (disp C) b * along C w b / C.zeta b ^ 2)).sum) * C.v p := by
  obtain ⟨h1, h2, h3⟩ := evaluate_parts h
  have hbi : ∀ b ∈ bondsOf nbs, b.i < nbs.length := by
    intro b hb'
    obtain ⟨ns, h1, _⟩ := mem_bondsOf hb'
    exact (List.getElem?_eq_some_iff.1 h1).1
  rw [power_scattered h3 (bonds_within hN), ← sum_partition (bondsOf nbs) nbs.length hbi
    (fun b => C.v b.j * coef C K mu S theta b * along C w b) C.v]
  congr 1
  apply Finset.sum_congr rfl
  intro p hp
  have hp := Finset.mem_range.1 hp
  congr 1
  by_cases hm : S.m p = 0
  · have : (bondsOf nbs).filter (fun b => b.i = p) = [] := by
      apply List.filter_eq_nil_iff.2
      intro b hb hbp
      have : b.i = p := by simpa using hbp
      exact (h2 b hb).1 (this ▸ hm)
    rw [bondsAt, this]
    unfold dil
    rw [bondsAt, this]
    simp
  have e : (K - 5 * mu / 3) * dil C S nbs (disp C) p * dil C S nbs w p =
      (9 * K - 15 * mu) * dil C S nbs (disp C) p / (3 * S.m p) *
        ((bondsAt nbs p).map fun b => wt C S b * along C w b).sum := by
    conv_lhs => rw [dil.eq_def C S nbs w p]
    field_simp
    ring
  rw [e, ← sum_combine]
  congr 1
  apply List.map_congr_left
  intro b hb
  have hi : b.i = p := of_decide_eq_true (List.mem_filter.1 hb).2
  have hz := (h2 b (List.mem_filter.1 hb).1).2
  rw [coef, h1 _ (hi ▸ hp), hi, wt]
  field_simp

end Verif.Lps
