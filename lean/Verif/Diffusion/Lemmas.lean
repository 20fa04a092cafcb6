import Verif.Diffusion.Spec
import Verif.Energy.Lemmas

noncomputable section

namespace Verif.Diffusion

open Verif Verif.Neigh Verif.Mech Verif.Energy
open scoped Classical

/-! ### Heat -/

/-- The contribution of a bond. -/
def fluxOf (M : Medium) (T : Nat → ℝ) (b : Bond) : ℝ :=
  M.coefficient b.i * (6 / kernelDenominator M b) * (T b.j - T b.i) * quadWeight M b

theorem fluxLoop_eq {M : Medium} {T : Nat → ℝ} {bs : List Bond} {D R : Nat → ℝ}
    (h : fluxLoop M T bs D = .ok R) :
    (∀ b ∈ bs, kernelDenominator M b ≠ 0) ∧
    ∀ p, R p = D p + ((bs.filter fun b => b.i = p).map (fluxOf M T)).sum := by
  induction bs generalizing D with
  | nil => cases h; simp
  | cons b bs ih =>
    obtain ⟨t, ht, h⟩ := Outcome.bind_eq_ok.1 h
    unfold fluxTerm at ht
    split at ht
    · cases ht
    · next hk =>
      cases ht
      obtain ⟨h1, h2⟩ := ih h
      refine ⟨fun c hc => ?_, fun p => ?_⟩
      · rcases List.mem_cons.1 hc with rfl | hc
        · exact hk
        · exact h1 c hc
      · rw [h2]
        by_cases hb : b.i = p
        · subst hb
          rw [Function.update_self, List.filter_cons_of_pos (by simp), List.map_cons, List.sum_cons]
          unfold fluxOf
          ring
        · rw [Function.update_of_ne (fun e => hb e.symm), List.filter_cons_of_neg (by simpa using hb)]

theorem fluxLoop_ok {M : Medium} {T : Nat → ℝ} {bs : List Bond} (D : Nat → ℝ)
    (h : ∀ b ∈ bs, kernelDenominator M b ≠ 0) : ∃ R, fluxLoop M T bs D = .ok R := by
  induction bs generalizing D with
  | nil => exact ⟨D, rfl⟩
  | cons b bs ih =>
    obtain ⟨R, hR⟩ := ih (Function.update D b.i (D b.i + _)) (fun c hc => h c (List.mem_cons_of_mem _ hc))
    exact ⟨R, Outcome.bind_eq_ok.2 ⟨_, if_neg (h b List.mem_cons_self), hR⟩⟩

theorem fluxLoop_fail {M : Medium} {T : Nat → ℝ} {bs : List Bond} (D : Nat → ℝ)
    (h : ∃ b ∈ bs, kernelDenominator M b = 0) : fluxLoop M T bs D = .fail .terminate := by
  induction bs generalizing D with
  | nil => obtain ⟨b, hb, _⟩ := h; cases hb
  | cons b bs ih =>
    rw [fluxLoop]
    by_cases hb : kernelDenominator M b = 0
    · rw [fluxTerm, if_pos hb]; rfl
    · rw [fluxTerm, if_neg hb, Outcome.ok_bind]
      apply ih
      obtain ⟨c, hc, h0⟩ := h
      rcases List.mem_cons.1 hc with rfl | hc
      · exact absurd h0 hb
      · exact ⟨c, hc, h0⟩

theorem flux_eq {M : Medium} {T D : Nat → ℝ} {nbs : List (List Nat)}
    (h : fluxDivergence M T nbs.length (encode nbs) = .ok D) :
    (∀ b ∈ bondsOf nbs, kernelDenominator M b ≠ 0) ∧
    ∀ p, D p = ((bondsAt nbs p).map (fluxOf M T)).sum := by
  rw [fluxDivergence, visited_encode, Outcome.ok_bind] at h
  obtain ⟨h1, h2⟩ := fluxLoop_eq h
  exact ⟨h1, fun p => by rw [h2 p, zero_add]⟩

theorem len_pos {a b : V3} (h : a ≠ b) : 0 < len (a - b) := by
  rcases (Real.sqrt_nonneg _).lt_or_eq with h1 | h1
  · exact h1
  · exact absurd (sub_eq_zero.1 (len_eq_zero.1 h1.symm)) h

theorem len_swap (a b : V3) : len (a - b) = len (b - a) := by
  unfold len
  congr 1
  simp only [Pi.sub_apply]
  ring

/-- Without stored weights the sum over the bonds of a point is one over its neighbors. -/
theorem bondsAt_sum {nbs : List (List Nat)} {p : Nat} {ns : List Nat} (hp : nbs[p]? = some ns)
    (g : Nat → Nat → ℝ) :
    ((bondsAt nbs p).map fun b => g b.i b.j).sum = (ns.map (g p)).sum := by
  rw [bondsAt, filter_bondsOf nbs hp, List.map_map]
  have : ∀ (ns : List Nat) (k : Nat) (g : Nat → ℝ), (ns.map g).sum =
      ((ns.zipIdx k).map (fun x => g x.1)).sum := by
    intro ns
    induction ns with
    | nil => intro k g; rfl
    | cons a ns ih => intro k g; rw [List.zipIdx_cons, List.map_cons, List.map_cons, List.sum_cons,
        List.sum_cons, ih (k + 1)]
  rw [this _ 0]
  rfl

theorem sum_count (ns : List Nat) (N : Nat) (g : Nat → ℝ) (h : ∀ j ∈ ns, j < N) :
    (ns.map g).sum = ∑ q ∈ Finset.range N, (ns.count q : ℝ) * g q := by
  induction ns with
  | nil => simp
  | cons a ns ih =>
    rw [List.map_cons, List.sum_cons, ih fun j hj => h j (List.mem_cons_of_mem _ hj)]
    have ha := h a List.mem_cons_self
    have : ∀ q ∈ Finset.range N, ((a :: ns).count q : ℝ) * g q =
        (if q = a then g q else 0) + (ns.count q : ℝ) * g q := by
      intro q _
      rw [List.count_cons]
      by_cases hq : q = a
      · subst hq; simp; ring
      · have : ¬ (a == q) = true := by simpa using fun e => hq e.symm
        simp [hq, this]
    rw [Finset.sum_congr rfl this, Finset.sum_add_distrib, Finset.sum_ite_eq' , if_pos (Finset.mem_range.2 ha)]

/-- Contributions that are opposite for the two ends of a bond cancel. -/
theorem mutual_sum {nbs : List (List Nat)} (hm : Mutual nbs) (hw : Within nbs nbs.length)
    (g : Nat → Nat → ℝ) (hg : ∀ p q, g p q = - g q p) :
    ∑ p ∈ Finset.range nbs.length, ((nbs.getD p []).map (g p)).sum = 0 := by
  have h1 : ∀ p ∈ Finset.range nbs.length, ((nbs.getD p []).map (g p)).sum =
      ∑ q ∈ Finset.range nbs.length, ((nbs.getD p []).count q : ℝ) * g p q := by
    intro p hp
    apply sum_count
    intro j hj
    have hlt := Finset.mem_range.1 hp
    rw [List.getD_eq_getElem?_getD, List.getElem?_eq_getElem hlt, Option.getD_some] at hj
    exact hw.2 _ (List.getElem_mem hlt) j hj
  rw [Finset.sum_congr rfl h1]
  have h2 : ∑ p ∈ Finset.range nbs.length, ∑ q ∈ Finset.range nbs.length,
      ((nbs.getD p []).count q : ℝ) * g p q = - ∑ p ∈ Finset.range nbs.length,
        ∑ q ∈ Finset.range nbs.length, ((nbs.getD p []).count q : ℝ) * g p q := by
    conv_lhs => rw [Finset.sum_comm]
    rw [← Finset.sum_neg_distrib]
    apply Finset.sum_congr rfl
    intro p _
    rw [← Finset.sum_neg_distrib]
    apply Finset.sum_congr rfl
    intro q _
    rw [hm q p, hg q p]
    ring
  linarith

theorem denominator_pos {M : Medium} {nbs : List (List Nat)} (hc : Conducting M nbs) {b : Bond}
    (hb : HasBond nbs b.i b.j) : 0 < kernelDenominator M b := by
  unfold kernelDenominator spacing
  have h1 := hc.horizon b.i
  have h2 := len_pos (hc.apart _ _ hb)
  have h3 := Real.pi_pos
  positivity

theorem quadWeight_pos {M : Medium} {nbs : List (List Nat)} (hc : Conducting M nbs) {b : Bond}
    (hb : HasBond nbs b.i b.j) : 0 < quadWeight M b := by
  unfold quadWeight
  cases hw : M.weights with
  | none => exact hc.volume hw _ _ hb
  | some w => exact hc.weight w hw _

/-- The factor with which the temperature difference of a bond counts. -/
def conductance (M : Medium) (b : Bond) : ℝ :=
  M.coefficient b.i * (6 / kernelDenominator M b) * quadWeight M b

theorem conductance_pos {M : Medium} {nbs : List (List Nat)} (hc : Conducting M nbs) {b : Bond}
    (hb : HasBond nbs b.i b.j) : 0 < conductance M b := by
  unfold conductance
  have h1 := denominator_pos hc hb
  have h2 := quadWeight_pos hc hb
  have h3 := hc.coefficient b.i
  positivity

theorem fluxOf_eq (M : Medium) (T : Nat → ℝ) (b : Bond) :
    fluxOf M T b = conductance M b * (T b.j - T b.i) := by
  unfold fluxOf conductance; ring

theorem conducting_ok {M : Medium} {nbs : List (List Nat)} (hc : Conducting M nbs) (T : Nat → ℝ) :
    ∃ D, fluxDivergence M T nbs.length (encode nbs) = .ok D := by
  rw [fluxDivergence, visited_encode, Outcome.ok_bind]
  exact fluxLoop_ok _ fun b hb => (denominator_pos hc (mem_bondsOf hb)).ne'

theorem mem_bondsAt {nbs : List (List Nat)} {p : Nat} {b : Bond} (h : b ∈ bondsAt nbs p) :
    HasBond nbs b.i b.j ∧ b.i = p := by
  have := List.mem_filter.1 h
  exact ⟨mem_bondsOf this.1, by simpa using this.2⟩

theorem sum_nonpos' {l : List ℝ} (h : ∀ x ∈ l, x ≤ 0) : l.sum ≤ 0 := by
  induction l with
  | nil => simp
  | cons a l ih =>
    rw [List.sum_cons]
    have := h a List.mem_cons_self
    have := ih fun x hx => h x (List.mem_cons_of_mem _ hx)
    linarith

theorem sum_neg' {l : List ℝ} (h : ∀ x ∈ l, x ≤ 0) {a : ℝ} (ha : a ∈ l) (hn : a < 0) : l.sum < 0 := by
  induction l with
  | nil => cases ha
  | cons c l ih =>
    rw [List.sum_cons]
    have h1 := h c List.mem_cons_self
    have h2 : ∀ x ∈ l, x ≤ 0 := fun x hx => h x (List.mem_cons_of_mem _ hx)
    rcases List.mem_cons.1 ha with rfl | ha
    · have := sum_nonpos' h2; linarith
    · have := ih h2 ha; linarith

/-! ### Fluid -/

/-- What a bond does to entry `k`. -/
def flowPull (C : Config) (k : Nat) (x : Bond × ℝ) : ℝ :=
  (if x.1.i = k then x.2 * C.v x.1.j else 0) - (if x.1.j = k then x.2 * C.v x.1.i else 0)

theorem flowStep_apply (C : Config) (Q : Nat → ℝ) (b : Bond) (q : ℝ) (k : Nat) :
    flowStep C Q b q k = Q k + flowPull C k (b, q) := by
  unfold flowStep flowPull
  simp only [Function.update_apply]
  by_cases h1 : k = b.j
  · subst h1
    by_cases h2 : b.j = b.i
    · rw [if_pos rfl, if_pos h2, if_pos h2.symm, if_pos rfl, h2]; ring
    · rw [if_pos rfl, if_neg h2, if_neg (Ne.symm h2), if_pos rfl]; ring
  · by_cases h2 : k = b.i
    · rw [if_neg h1, if_pos h2, if_pos h2.symm, if_neg (Ne.symm h1), h2]; ring
    · rw [if_neg h1, if_neg h2, if_neg (Ne.symm h1), if_neg (Ne.symm h2)]; ring

theorem flowLoop_eq {C : Config} {P : Fluid} {pr : Nat → ℝ} {bs : List Bond} {Q R : Nat → ℝ}
    (h : flowLoop C P pr bs Q = .ok R) :
    ∃ q : Bond → ℝ, (∀ b ∈ bs, bondFlow C P pr b = .ok (q b)) ∧
    ∀ k, R k = Q k + (bs.map fun b => flowPull C k (b, q b)).sum := by
  refine ⟨fun b => match bondFlow C P pr b with | .ok x => x | _ => 0, ?_⟩
  induction bs generalizing Q with
  | nil => cases h; simp
  | cons b bs ih =>
    obtain ⟨x, hx, h⟩ := Outcome.bind_eq_ok.1 h
    obtain ⟨h1, h2⟩ := ih h
    refine ⟨fun c hc => ?_, fun k => ?_⟩
    · rcases List.mem_cons.1 hc with rfl | hc
      · simp only [hx]
      · exact h1 c hc
    · rw [h2 k, flowStep_apply, List.map_cons, List.sum_cons]
      simp only [hx]
      ring

theorem flow_eq {C : Config} {P : Fluid} {pr : Nat → ℝ} {nbs : List (List Nat)} {Q : Nat → ℝ}
    (h : fluidFlow C P pr nbs.length (encode nbs) = .ok Q) :
    ∃ q : Bond → ℝ, (∀ b ∈ bondsOf nbs, bondFlow C P pr b = .ok (q b)) ∧
    ∀ k, Q k = ((bondsOf nbs).map fun b => flowPull C k (b, q b)).sum := by
  rw [fluidFlow, visited_encode, Outcome.ok_bind] at h
  obtain ⟨q, h1, h2⟩ := flowLoop_eq h
  exact ⟨q, h1, fun k => by rw [h2 k, zero_add]⟩

theorem flowLoop_ok {C : Config} {P : Fluid} {pr : Nat → ℝ} {bs : List Bond} (Q : Nat → ℝ)
    (h : ∀ b ∈ bs, ∃ q, bondFlow C P pr b = .ok q) : ∃ R, flowLoop C P pr bs Q = .ok R := by
  induction bs generalizing Q with
  | nil => exact ⟨Q, rfl⟩
  | cons b bs ih =>
    obtain ⟨q, hq⟩ := h b List.mem_cons_self
    obtain ⟨R, hR⟩ := ih (flowStep C Q b q) (fun c hc => h c (List.mem_cons_of_mem _ hc))
    exact ⟨R, Outcome.bind_eq_ok.2 ⟨q, hq, hR⟩⟩

theorem flowPull_total (C : Config) (N : Nat) (b : Bond) (q : ℝ) (h : b.i < N ∧ b.j < N) :
    ∑ k ∈ Finset.range N, C.v k * flowPull C k (b, q) = 0 := by
  unfold flowPull
  simp only [mul_sub, mul_ite, mul_zero]
  rw [Finset.sum_sub_distrib, Finset.sum_ite_eq, Finset.sum_ite_eq, if_pos (Finset.mem_range.2 h.1),
    if_pos (Finset.mem_range.2 h.2)]
  ring

theorem flow_total {C : Config} (N : Nat) (bs : List Bond) (q : Bond → ℝ)
    (h : ∀ b ∈ bs, b.i < N ∧ b.j < N) :
    ∑ k ∈ Finset.range N, C.v k * (bs.map fun b => flowPull C k (b, q b)).sum = 0 := by
  induction bs with
  | nil => simp
  | cons b bs ih =>
    simp only [List.map_cons, List.sum_cons, mul_add]
    rw [Finset.sum_add_distrib, flowPull_total C N b _ (h b List.mem_cons_self),
      ih fun c hc => h c (List.mem_cons_of_mem _ hc), add_zero]

theorem bondPermeability_eq (C : Config) (P : Fluid) (b : Bond) :
    bondPermeability C P b = P.permeability / 4 * C.dY b ^ 2 := by
  have h : C.dY b ^ 2 = C.yd b 0 * C.yd b 0 + C.yd b 1 * C.yd b 1 + C.yd b 2 * C.yd b 2 := by
    unfold Config.dY len
    rw [Real.sq_sqrt]
    nlinarith [mul_self_nonneg (C.yd b 0), mul_self_nonneg (C.yd b 1), mul_self_nonneg (C.yd b 2)]
  rw [h]
  unfold bondPermeability nonlocalPermeability
  have e : ∀ row : Fin 3, (∑ col, C.yd b row *
      (if row = col then P.permeability - 0.25 * (3 * P.permeability) else 0) * C.yd b col) =
      P.permeability / 4 * (C.yd b row * C.yd b row) := by
    intro row
    simp only [mul_ite, ite_mul, mul_zero, zero_mul, Finset.sum_ite_eq, Finset.mem_univ, if_true]
    norm_num
    ring
  simp only [e, Fin.sum_univ_three]
  ring

/-- The weight of the upper limit of the permeability. -/
def share (P : Fluid) (d : ℝ) : ℝ := 1 / (1 + Real.exp (P.alpha * (d - P.inflection)))

theorem share_pos (P : Fluid) (d : ℝ) : 0 < share P d ∧ share P d < 1 := by
  unfold share
  have := Real.exp_pos (P.alpha * (d - P.inflection))
  constructor
  · positivity
  · rw [div_lt_one (by positivity)]; linarith

theorem share_mono (P : Fluid) {d e : ℝ} (h : P.alpha * (e - P.inflection) ≤ P.alpha * (d - P.inflection)) :
    share P d ≤ share P e := by
  unfold share
  have h1 := Real.exp_pos (P.alpha * (e - P.inflection))
  have h2 := Real.exp_le_exp.2 h
  exact one_div_le_one_div_of_le (by positivity) (by linarith)

theorem effective_eq (C : Config) (P : Fluid) (b : Bond) :
    effectivePermeability C P b = (1 - share P (C.damage b.b)) * (P.permeability / 4 * C.dY b ^ 2) +
      share P (C.damage b.b) * P.maxPermeability := by
  unfold effectivePermeability share
  rw [bondPermeability_eq]
  ring

theorem effective_nonneg {C : Config} {P : Fluid} (hP : P.Physical) (b : Bond) :
    0 ≤ effectivePermeability C P b := by
  rw [effective_eq]
  obtain ⟨h1, h2⟩ := share_pos P (C.damage b.b)
  have h3 := hP.permeability
  have h4 := hP.maxPermeability
  have h5 : 0 ≤ 1 - share P (C.damage b.b) := by linarith
  positivity

theorem viscosityAt_pos {C : Config} {P : Fluid} (hP : P.Physical) (p : Nat) : 0 < viscosityAt C P p := by
  unfold viscosityAt
  cases C.thermal with
  | none => exact hP.viscosity
  | some x => exact mul_pos hP.viscosity (Real.exp_pos _)

/-- The factor with which the pressure difference of a bond counts, apart from the permeability. -/
def mobility (C : Config) (P : Fluid) (b : Bond) : ℝ :=
  P.density / viscosityAt C P b.i * (4 / (Real.pi * C.horizon * C.horizon)) / C.dY b ^ 4

theorem mobility_nonneg {C : Config} {P : Fluid} (hP : P.Physical) (b : Bond) : 0 ≤ mobility C P b := by
  unfold mobility
  have h1 := viscosityAt_pos (C := C) hP b.i
  have h2 := hP.density
  have h3 := Real.pi_pos
  have h4 : 0 ≤ Real.pi * C.horizon * C.horizon := by
    rw [mul_assoc]; exact mul_nonneg h3.le (mul_self_nonneg _)
  positivity

theorem bondFlow_eq {C : Config} {P : Fluid} {pr : Nat → ℝ} {b : Bond} {q : ℝ}
    (h : bondFlow C P pr b = .ok q) :
    q = mobility C P b * effectivePermeability C P b * (pr b.j - pr b.i) := by
  unfold bondFlow at h
  split at h
  · cases h
  · split at h
    · cases h
    · split at h
      · cases h
      · cases h
        unfold mobility
        ring

theorem fluid_ok {C : Config} {P : Fluid} {nbs : List (List Nat)} (hP : P.Physical)
    (hh : C.horizon ≠ 0) (ha : ∀ p j, HasBond nbs p j → C.y j ≠ C.y p) (pr : Nat → ℝ) :
    ∃ Q, fluidFlow C P pr nbs.length (encode nbs) = .ok Q := by
  rw [fluidFlow, visited_encode, Outcome.ok_bind]
  apply flowLoop_ok
  intro b hb
  have h1 : ¬ C.dY b = 0 := (len_pos (ha _ _ (mem_bondsOf hb))).ne'
  have h2 : ¬ Real.pi * C.horizon * C.horizon = 0 := by
    have := Real.pi_pos.ne'
    positivity
  exact ⟨_, by rw [bondFlow, if_neg (viscosityAt_pos hP _).ne', if_neg h2, if_neg h1]⟩

/-! ### Poisson -/

theorem poisson_scattered {C : Config} {nbs : List (List Nat)} {F : Nat → V3}
    (h : poissonMaterial C nbs.length (encode nbs) = .ok F) :
    Scattered (selfVol C) (nbrVol C) (fun b g => poissonBond C b = .ok g) (bondsOf nbs) 0 F :=
  kernel_scattered h

/-! ### Coupled force -/

theorem coupledBond_central {C : Config} {K mu : ℝ} {dsf pr theta : Nat → ℝ} {b : Bond} {g : V3}
    (h : coupledBond C K mu dsf pr theta b = .ok g) : Central C b g := by
  unfold coupledBond at h
  split at h
  · cases h
  · exact along_central h

theorem multiphysics_parts {C : Config} {K mu : ℝ} {P : Fluid} {dsf pr : Nat → ℝ} {nbs : List (List Nat)}
    {th theta : Nat → ℝ} {F : Nat → V3} {Q : Nat → ℝ}
    (h : multiphysicsMaterial C K mu P dsf pr nbs.length (encode nbs) th = .ok (theta, F, Q)) :
    dilatation C nbs.length (encode nbs) th = .ok theta ∧
    kernel (selfVol C) (nbrVol C) (coupledBond C K mu dsf pr theta) nbs.length (encode nbs) 0 = .ok F ∧
    fluidFlow C P pr nbs.length (encode nbs) = .ok Q := by
  obtain ⟨t, h1, h⟩ := Outcome.bind_eq_ok.1 h
  obtain ⟨G, h2, h⟩ := Outcome.bind_eq_ok.1 h
  obtain ⟨R, h3, h⟩ := Outcome.bind_eq_ok.1 h
  cases h
  exact ⟨h1, h2, h3⟩

end Verif.Diffusion
