import Verif.Diffusion.Lemmas

/-! Property theorems for heat diffusion: C103 to C105. -/

noncomputable section

namespace Verif.Diffusion

open Verif Verif.Neigh Verif.Mech Verif.Energy
open scoped Classical

/-! ### C103: heat is conserved -/

/-- **C103** for mutual neighborhoods, one coefficient, one horizon and cell volumes as weights: the heat
that leaves some points enters others. -/
theorem C103_partial (M : Medium) (nbs : List (List Nat)) (T D : Nat → ℝ) (h c : ℝ)
    (hM : Mutual nbs) (hw : Within nbs nbs.length) (hq : M.weights = none)
    (hh : ∀ p, M.horizon p = h) (hc : ∀ p, M.coefficient p = c)
    (hD : fluxDivergence M T nbs.length (encode nbs) = .ok D) :
    total M.v D nbs.length = 0 := by
  obtain ⟨_, h2⟩ := flux_eq hD
  let g : Nat → Nat → ℝ := fun p q => M.v p * (c * (6 / (Real.pi * h * h * h * h * len (M.x p - M.x q))) *
    (T q - T p) * M.v q)
  rw [← mutual_sum hM hw g fun p q => ?_, total]
  · apply Finset.sum_congr rfl
    intro p hp
    have hlt := Finset.mem_range.1 hp
    have e : nbs[p]? = some (nbs.getD p []) := by
      rw [List.getD_eq_getElem?_getD, List.getElem?_eq_getElem hlt, Option.getD_some]
    rw [h2 p, ← bondsAt_sum e g, ← List.sum_map_mul_left]
    congr 1
    apply List.map_congr_left
    intro b hb
    obtain ⟨_, rfl⟩ := mem_bondsAt hb
    unfold fluxOf kernelDenominator spacing quadWeight
    rw [hq, hh, hc]
  · simp only [g]
    rw [len_swap]
    ring

/-- Two points one unit apart. -/
def pair (coefficient : Nat → ℝ) (weights : Option (Nat → ℝ)) : Medium where
  x := fun k => ![k, 0, 0]
  v := fun _ => 1
  weights := weights
  horizon := fun _ => 1
  coefficient := coefficient

theorem pair_denominator (c : Nat → ℝ) (w : Option (Nat → ℝ)) (b : Bond)
    (h : (b.i = 0 ∧ b.j = 1) ∨ (b.i = 1 ∧ b.j = 0)) : kernelDenominator (pair c w) b = Real.pi := by
  unfold kernelDenominator spacing len
  rcases h with ⟨h1, h2⟩ | ⟨h1, h2⟩ <;> simp [pair, h1, h2]

theorem pair_flux (c : Nat → ℝ) (w : Option (Nat → ℝ)) (nbs : List (List Nat))
    (h : ∀ b ∈ bondsOf nbs, (b.i = 0 ∧ b.j = 1) ∨ (b.i = 1 ∧ b.j = 0)) (T : Nat → ℝ) :
    ∃ D, fluxDivergence (pair c w) T nbs.length (encode nbs) = .ok D := by
  rw [fluxDivergence, visited_encode, Outcome.ok_bind]
  apply fluxLoop_ok
  intro b hb
  rw [pair_denominator c w b (h b hb)]
  exact Real.pi_ne_zero

/-- The case above is met by two bonded points of different temperature. -/
example : Mutual [[1], [0]] ∧ Within [[1], [0]] 2 ∧
    ∃ D, fluxDivergence (pair (fun _ => 1) none) (fun k => k) 2 (encode [[1], [0]]) = .ok D ∧ D 0 ≠ 0 := by
  refine ⟨?_, by unfold Within; decide, ?_⟩
  · intro p q
    match p, q with
    | 0, 0 => rfl
    | 0, 1 => rfl
    | 0, q + 2 => rfl
    | 1, 0 => rfl
    | 1, 1 => rfl
    | 1, q + 2 => rfl
    | p + 2, 0 => rfl
    | p + 2, 1 => rfl
    | p + 2, q + 2 => rfl
  · obtain ⟨D, hD⟩ := pair_flux (fun _ => 1) none [[1], [0]] (by decide) (fun k => k)
    refine ⟨D, hD, ?_⟩
    rw [(flux_eq hD).2 0]
    have e : bondsAt [[1], [0]] 0 = [⟨0, 1, 0⟩] := by decide
    rw [e]
    simp only [List.map_cons, List.map_nil, List.sum_cons, List.sum_nil]
    rw [fluxOf, pair_denominator _ _ _ (Or.inl ⟨rfl, rfl⟩)]
    have := Real.pi_ne_zero
    simp [pair, quadWeight]

/-- If only one of two points has the other as a neighbor (as a bond filter or unequal horizons can
bring about), heat is not conserved. -/
theorem C103_broken_one_sided :
    ∃ (M : Medium) (T D : Nat → ℝ), M.weights = none ∧ Conducting M [[1], []] ∧
      fluxDivergence M T 2 (encode [[1], []]) = .ok D ∧ total M.v D 2 ≠ 0 := by
  obtain ⟨D, hD⟩ := pair_flux (fun _ => 1) none [[1], []] (by decide) (fun k => k)
  refine ⟨pair (fun _ => 1) none, fun k => k, D, rfl, ?_, hD, ?_⟩
  · refine ⟨fun _ => by simp [pair], fun _ => by simp [pair], fun _ _ _ _ => by simp [pair],
      fun w hw => by simp [pair] at hw, ?_⟩
    intro p j ⟨ns, hp, hj⟩
    match p, hp with
    | 0, hp => cases hp; simp at hj; subst hj; intro h; simpa [pair] using congrFun h 0
    | 1, hp => cases hp; simp at hj
    | p + 2, hp => simp at hp
  · have h2 := (flux_eq hD).2
    have e0 : bondsAt [[1], []] 0 = [⟨0, 1, 0⟩] := by decide
    have e1 : bondsAt [[1], []] 1 = [] := by decide
    rw [total, Finset.sum_range_succ, Finset.sum_range_one, h2, h2, e0, e1]
    simp only [List.map_cons, List.map_nil, List.sum_cons, List.sum_nil]
    rw [fluxOf, pair_denominator _ _ _ (Or.inl ⟨rfl, rfl⟩)]
    have := Real.pi_ne_zero
    simp [pair, quadWeight]

/-- If two blocks have different coefficients, heat is not conserved at the interface. -/
theorem C103_broken_blocks :
    ∃ (M : Medium) (T D : Nat → ℝ), M.weights = none ∧ Conducting M [[1], [0]] ∧
      fluxDivergence M T 2 (encode [[1], [0]]) = .ok D ∧ total M.v D 2 ≠ 0 := by
  obtain ⟨D, hD⟩ := pair_flux (fun k => k + 1) none [[1], [0]] (by decide) (fun k => k)
  refine ⟨pair (fun k => k + 1) none, fun k => k, D, rfl, ?_, hD, ?_⟩
  · refine ⟨fun _ => by simp only [pair]; positivity, fun _ => by simp [pair],
      fun _ _ _ _ => by simp [pair], fun w hw => by simp [pair] at hw, ?_⟩
    intro p j ⟨ns, hp, hj⟩
    match p, hp with
    | 0, hp => cases hp; simp at hj; subst hj; intro h; simpa [pair] using congrFun h 0
    | 1, hp => cases hp; simp at hj; subst hj; intro h; simpa [pair] using congrFun h 0
    | p + 2, hp => simp at hp
  · have h2 := (flux_eq hD).2
    have e0 : bondsAt [[1], [0]] 0 = [⟨0, 1, 0⟩] := by decide
    have e1 : bondsAt [[1], [0]] 1 = [⟨1, 0, 1⟩] := by decide
    rw [total, Finset.sum_range_succ, Finset.sum_range_one, h2, h2, e0, e1]
    simp only [List.map_cons, List.map_nil, List.sum_cons, List.sum_nil]
    rw [fluxOf, fluxOf, pair_denominator _ _ _ (Or.inl ⟨rfl, rfl⟩),
      pair_denominator _ _ _ (Or.inr ⟨rfl, rfl⟩)]
    have := Real.pi_ne_zero
    simp only [pair, quadWeight]
    field_simp
    norm_num

/-- With stored quadrature weights that differ for the two directions of a bond, heat is not
conserved. -/
theorem C103_broken_weights :
    ∃ (M : Medium) (w T D : Nat → ℝ), M.weights = some w ∧ Conducting M [[1], [0]] ∧
      (∀ p, M.coefficient p = 1) ∧
      fluxDivergence M T 2 (encode [[1], [0]]) = .ok D ∧ total M.v D 2 ≠ 0 := by
  obtain ⟨D, hD⟩ := pair_flux (fun _ => 1) (some fun k => k + 1) [[1], [0]] (by decide) (fun k => k)
  refine ⟨pair (fun _ => 1) (some fun k => k + 1), fun k => k + 1, fun k => k, D, rfl, ?_,
    fun _ => rfl, hD, ?_⟩
  · refine ⟨fun _ => by simp [pair], fun _ => by simp [pair],
      fun _ _ _ _ => by simp [pair], fun w hw k => ?_, ?_⟩
    · have : (fun k : Nat => (k : ℝ) + 1) = w := by simpa [pair] using hw
      rw [← this]; positivity
    intro p j ⟨ns, hp, hj⟩
    match p, hp with
    | 0, hp => cases hp; simp at hj; subst hj; intro h; simpa [pair] using congrFun h 0
    | 1, hp => cases hp; simp at hj; subst hj; intro h; simpa [pair] using congrFun h 0
    | p + 2, hp => simp at hp
  · have h2 := (flux_eq hD).2
    have e0 : bondsAt [[1], [0]] 0 = [⟨0, 1, 0⟩] := by decide
    have e1 : bondsAt [[1], [0]] 1 = [⟨1, 0, 1⟩] := by decide
    rw [total, Finset.sum_range_succ, Finset.sum_range_one, h2, h2, e0, e1]
    simp only [List.map_cons, List.map_nil, List.sum_cons, List.sum_nil]
    rw [fluxOf, fluxOf, pair_denominator _ _ _ (Or.inl ⟨rfl, rfl⟩),
      pair_denominator _ _ _ (Or.inr ⟨rfl, rfl⟩)]
    have := Real.pi_ne_zero
    simp only [pair, quadWeight]
    field_simp
    norm_num

/-! ### C104: heat flows from hot to cold -/

/-- **C104**, uniform: a point that has the temperature of all of its neighbors neither gains nor loses
heat. -/
theorem C104_uniform (M : Medium) (nbs : List (List Nat)) (T D : Nat → ℝ) (p : Nat)
    (hD : fluxDivergence M T nbs.length (encode nbs) = .ok D)
    (hT : ∀ j, HasBond nbs p j → T j = T p) : D p = 0 := by
  rw [(flux_eq hD).2 p]
  apply List.sum_eq_zero
  intro x hx
  obtain ⟨b, hb, rfl⟩ := List.mem_map.1 hx
  obtain ⟨h1, rfl⟩ := mem_bondsAt hb
  rw [fluxOf_eq, hT _ h1, sub_self, mul_zero]

/-- **C104**, hot: a point at least as hot as all of its neighbors gains no heat, and loses heat if one of
them is colder. -/
theorem C104_hot (M : Medium) (nbs : List (List Nat)) (T D : Nat → ℝ) (p : Nat)
    (hc : Conducting M nbs) (hD : fluxDivergence M T nbs.length (encode nbs) = .ok D)
    (hT : ∀ j, HasBond nbs p j → T j ≤ T p) :
    D p ≤ 0 ∧ ((∃ j, HasBond nbs p j ∧ T j < T p) → D p < 0) := by
  rw [(flux_eq hD).2 p]
  have hle : ∀ x ∈ (bondsAt nbs p).map (fluxOf M T), x ≤ 0 := by
    intro x hx
    obtain ⟨b, hb, rfl⟩ := List.mem_map.1 hx
    obtain ⟨h1, rfl⟩ := mem_bondsAt hb
    rw [fluxOf_eq]
    have := conductance_pos hc h1
    have := hT _ h1
    nlinarith
  refine ⟨sum_nonpos' hle, fun ⟨j, hj, hlt⟩ => ?_⟩
  obtain ⟨b, hb, rfl, rfl⟩ := bond_of_has hj
  refine sum_neg' hle (List.mem_map_of_mem (List.mem_filter.2 ⟨hb, by simp⟩)) ?_
  rw [fluxOf_eq]
  have := conductance_pos hc hj
  nlinarith

/-- Reversing the sign of the temperature reverses the flux. -/
theorem flux_neg {M : Medium} {nbs : List (List Nat)} {T D : Nat → ℝ}
    (hD : fluxDivergence M T nbs.length (encode nbs) = .ok D) :
    ∃ D', fluxDivergence M (fun k => - T k) nbs.length (encode nbs) = .ok D' ∧ ∀ p, D' p = - D p := by
  obtain ⟨h1, h2⟩ := flux_eq hD
  obtain ⟨D', hD'⟩ : ∃ D', fluxDivergence M (fun k => - T k) nbs.length (encode nbs) = .ok D' := by
    rw [fluxDivergence, visited_encode, Outcome.ok_bind]
    exact fluxLoop_ok _ h1
  refine ⟨D', hD', fun p => ?_⟩
  rw [(flux_eq hD').2 p, h2 p, ← neg_one_mul, ← List.sum_map_mul_left]
  congr 1
  apply List.map_congr_left
  intro b _
  rw [fluxOf_eq, fluxOf_eq]
  ring

/-- **C104**, cold: a point at least as cold as all of its neighbors loses no heat, and gains heat if one
of them is hotter. -/
theorem C104_cold (M : Medium) (nbs : List (List Nat)) (T D : Nat → ℝ) (p : Nat)
    (hc : Conducting M nbs) (hD : fluxDivergence M T nbs.length (encode nbs) = .ok D)
    (hT : ∀ j, HasBond nbs p j → T p ≤ T j) :
    0 ≤ D p ∧ ((∃ j, HasBond nbs p j ∧ T p < T j) → 0 < D p) := by
  obtain ⟨D', hD', he⟩ := flux_neg hD
  have := C104_hot M nbs _ D' p hc hD' (fun j hj => neg_le_neg (hT j hj))
  rw [he p] at this
  refine ⟨by linarith [this.1], fun ⟨j, hj, hlt⟩ => ?_⟩
  have := this.2 ⟨j, hj, neg_lt_neg hlt⟩
  linarith

/-- **C104**, defined: the computation ends with a result, or it terminates the program, which happens if
and only if a point with neighbors has horizon zero or a neighbor at its own position.  It has no
undefined behaviour. -/
theorem C104_defined (M : Medium) (nbs : List (List Nat)) (T : Nat → ℝ) :
    ((∀ p j, HasBond nbs p j → M.horizon p ≠ 0 ∧ M.x p ≠ M.x j) →
      ∃ D, fluxDivergence M T nbs.length (encode nbs) = .ok D) ∧
    ((∃ p j, HasBond nbs p j ∧ (M.horizon p = 0 ∨ M.x p = M.x j)) →
      fluxDivergence M T nbs.length (encode nbs) = .fail .terminate) := by
  constructor
  · intro h
    rw [fluxDivergence, visited_encode, Outcome.ok_bind]
    apply fluxLoop_ok
    intro b hb
    obtain ⟨h1, h2⟩ := h _ _ (mem_bondsOf hb)
    unfold kernelDenominator spacing
    have h3 := (len_pos h2).ne'
    have h4 := Real.pi_ne_zero
    positivity
  · rintro ⟨p, j, hb, h⟩
    rw [fluxDivergence, visited_encode, Outcome.ok_bind]
    apply fluxLoop_fail
    obtain ⟨b, hm, rfl, rfl⟩ := bond_of_has hb
    refine ⟨b, hm, ?_⟩
    unfold kernelDenominator spacing
    rcases h with h | h
    · rw [h]; ring
    · have : len (M.x b.i - M.x b.j) = 0 := by rw [h, sub_self]; exact len_eq_zero.2 rfl
      rw [this, mul_zero]

/-- **C104**, size: the flux is proportional to the coefficient and to the temperature differences. -/
theorem C104_scale (M : Medium) (nbs : List (List Nat)) (T D : Nat → ℝ) (a c t0 : ℝ)
    (hD : fluxDivergence M T nbs.length (encode nbs) = .ok D) :
    ∃ D', fluxDivergence { M with coefficient := fun p => a * M.coefficient p } (fun k => t0 + c * T k)
      nbs.length (encode nbs) = .ok D' ∧ ∀ p, D' p = a * c * D p := by
  obtain ⟨h1, h2⟩ := flux_eq hD
  obtain ⟨D', hD'⟩ : ∃ D', fluxDivergence { M with coefficient := fun p => a * M.coefficient p }
      (fun k => t0 + c * T k) nbs.length (encode nbs) = .ok D' := by
    rw [fluxDivergence, visited_encode, Outcome.ok_bind]
    exact fluxLoop_ok _ h1
  refine ⟨D', hD', fun p => ?_⟩
  rw [(flux_eq hD').2 p, h2 p, ← List.sum_map_mul_left]
  congr 1
  apply List.map_congr_left
  intro b _
  have e1 : kernelDenominator { M with coefficient := fun p => a * M.coefficient p } b =
    kernelDenominator M b := rfl
  have e2 : quadWeight { M with coefficient := fun p => a * M.coefficient p } b = quadWeight M b := rfl
  simp only [fluxOf, e1, e2]
  ring

/-- **C104**, weights: with improved quadrature the stored weights replace the volumes. -/
theorem C104_weights (M : Medium) (nbs : List (List Nat)) (T v w : Nat → ℝ) (hw : M.weights = some w)
    (hv : ∀ p ns t j, nbs[p]? = some ns → ns[t]? = some j → w (bondPos nbs p t) = v j) :
    fluxDivergence M T nbs.length (encode nbs) =
      fluxDivergence { M with weights := none, v := v } T nbs.length (encode nbs) := by
  rw [fluxDivergence, fluxDivergence, visited_encode, Outcome.ok_bind, Outcome.ok_bind]
  have key : ∀ (bs : List Bond) (D : Nat → ℝ), (∀ b ∈ bs, w b.b = v b.j) →
      fluxLoop M T bs D = fluxLoop { M with weights := none, v := v } T bs D := by
    intro bs
    induction bs with
    | nil => intros; rfl
    | cons b bs ih =>
      intro D h
      have e : fluxTerm M T b = fluxTerm { M with weights := none, v := v } T b := by
        unfold fluxTerm quadWeight
        rw [hw]
        simp only
        rw [h b List.mem_cons_self]
        rfl
      rw [fluxLoop, fluxLoop, e]
      congr 1
      funext t
      exact ih _ fun c hc => h c (List.mem_cons_of_mem _ hc)
  refine key _ _ fun b hb => ?_
  obtain ⟨t, ⟨ns, h1, h2⟩, h3⟩ := bondsOf_pos hb
  rw [h3]
  exact hv _ ns t _ h1 h2

/-- A rod of three points, the middle one hottest. -/
def rod : Medium where
  x := fun k => ![k, 0, 0]
  v := fun _ => 1
  weights := none
  horizon := fun _ => 1
  coefficient := fun _ => 2

def rodNbs : List (List Nat) := [[1], [0, 2], [1]]

theorem rod_conducting : Conducting rod rodNbs := by
  refine ⟨fun _ => by simp [rod], fun _ => by simp [rod], fun _ _ _ _ => by simp [rod],
    fun w hw => by simp [rod] at hw, ?_⟩
  intro p j hb h
  have h0 : (p : ℝ) = j := by simpa [rod] using congrFun h 0
  have h1 : p = j := by exact_mod_cast h0
  subst h1
  obtain ⟨ns, hp, hj⟩ := hb
  match p, hp with
  | 0, hp => cases hp; simp at hj
  | 1, hp => cases hp; simp at hj
  | 2, hp => cases hp; simp at hj
  | p + 3, hp => simp [rodNbs] at hp

/-- The hottest point of the rod loses heat. -/
example : ∃ D, fluxDivergence rod (fun k => if k = 1 then 5 else k) 3 (encode rodNbs) = .ok D ∧ D 1 < 0 := by
  obtain ⟨D, hD⟩ := conducting_ok rod_conducting (fun k => if k = 1 then 5 else k)
  refine ⟨D, hD, (C104_hot rod rodNbs _ D 1 rod_conducting hD ?_).2 ⟨0, ⟨[0, 2], rfl, by simp⟩, by norm_num⟩⟩
  rintro j ⟨ns, hp, hj⟩
  cases hp
  simp at hj
  rcases hj with rfl | rfl <;> norm_num

/-- Two points at one place. -/
example : fluxDivergence { rod with x := fun _ => 0 } (fun k => k) 3 (encode rodNbs) = .fail .terminate :=
  (C104_defined { rod with x := fun _ => 0 } rodNbs fun k => k).2
    ⟨0, 1, ⟨[1], rfl, by simp⟩, Or.inr rfl⟩

/-! ### C105: steady temperatures -/

theorem steady_upper {M : Medium} {nbs : List (List Nat)} {B : Nat → Prop} {T : Nat → ℝ} {hi : ℝ}
    (hc : Conducting M nbs) (hw : Within nbs nbs.length) (ha : Anchored nbs B)
    (hs : Steady M nbs B T) (hB : ∀ c < nbs.length, B c → T c ≤ hi) :
    ∀ p < nbs.length, T p ≤ hi := by
  obtain ⟨D, hD, h0⟩ := hs
  intro p hp
  by_contra hcon
  have hcon := not_le.1 hcon
  obtain ⟨m, hm, hmax⟩ := Finset.exists_max_image (Finset.range nbs.length) T ⟨p, Finset.mem_range.2 hp⟩
  have hmp := hmax p (Finset.mem_range.2 hp)
  obtain ⟨c, hBc, hpath⟩ := ha m (Finset.mem_range.1 hm)
  have key : c < nbs.length ∧ T c = T m := by
    clear hBc
    induction hpath with
    | refl => exact ⟨Finset.mem_range.1 hm, rfl⟩
    | @tail b c _ hb ih =>
      obtain ⟨h1, h2⟩ := ih
      have hn : ∀ j, HasBond nbs b j → j < nbs.length := by
        rintro j ⟨ns, hns, hj⟩
        exact hw.2 ns (List.mem_of_getElem? hns) j hj
      refine ⟨hn c hb, le_antisymm (hmax c (Finset.mem_range.2 (hn c hb))) ?_⟩
      by_contra hlt
      have hlt := not_le.1 hlt
      have hle : ∀ j, HasBond nbs b j → T j ≤ T b := fun j hj => by
        rw [h2]; exact hmax j (Finset.mem_range.2 (hn j hj))
      have hneg := (C104_hot M nbs T D b hc hD hle).2 ⟨c, hb, by rw [h2]; exact hlt⟩
      have hnB : ¬ B b := fun hBb => by
        have := hB b h1 hBb
        linarith
      rw [h0 b h1 hnB] at hneg
      exact lt_irrefl _ hneg
  have := hB c key.1 hBc
  linarith [key.2]

theorem steady_neg {M : Medium} {nbs : List (List Nat)} {B : Nat → Prop} {T : Nat → ℝ}
    (hs : Steady M nbs B T) : Steady M nbs B fun k => - T k := by
  obtain ⟨D, hD, h0⟩ := hs
  obtain ⟨D', hD', he⟩ := flux_neg hD
  exact ⟨D', hD', fun p hp hB => by rw [he, h0 p hp hB, neg_zero]⟩

/-- **C105**, bounds: a steady temperature field lies between the prescribed temperatures. -/
theorem C105_bounds (M : Medium) (nbs : List (List Nat)) (B : Nat → Prop) (T : Nat → ℝ) (lo hi : ℝ)
    (hc : Conducting M nbs) (hw : Within nbs nbs.length) (ha : Anchored nbs B)
    (hs : Steady M nbs B T) (hB : ∀ c < nbs.length, B c → lo ≤ T c ∧ T c ≤ hi) :
    ∀ p < nbs.length, lo ≤ T p ∧ T p ≤ hi := by
  intro p hp
  refine ⟨?_, steady_upper hc hw ha hs (fun c h1 h2 => (hB c h1 h2).2) p hp⟩
  have := steady_upper (hi := -lo) hc hw ha (steady_neg hs)
    (fun c h1 h2 => neg_le_neg (hB c h1 h2).1) p hp
  linarith

theorem steady_sub {M : Medium} {nbs : List (List Nat)} {B : Nat → Prop} {T T' : Nat → ℝ}
    (hc : Conducting M nbs) (hs : Steady M nbs B T) (hs' : Steady M nbs B T') :
    Steady M nbs B fun k => T k - T' k := by
  obtain ⟨D, hD, h0⟩ := hs
  obtain ⟨D', hD', h0'⟩ := hs'
  obtain ⟨E, hE⟩ := conducting_ok hc fun k => T k - T' k
  refine ⟨E, hE, fun p hp hB => ?_⟩
  have : E p = D p - D' p := by
    rw [(flux_eq hE).2 p, (flux_eq hD).2 p, (flux_eq hD').2 p]
    generalize bondsAt nbs p = l
    induction l with
    | nil => simp
    | cons b l ih =>
      simp only [List.map_cons, List.sum_cons, ih, fluxOf_eq]
      ring
  rw [this, h0 p hp hB, h0' p hp hB, sub_zero]

/-- **C105**, uniqueness: the prescribed temperatures determine the steady temperature field. -/
theorem C105_unique (M : Medium) (nbs : List (List Nat)) (B : Nat → Prop) (T T' : Nat → ℝ)
    (hc : Conducting M nbs) (hw : Within nbs nbs.length) (ha : Anchored nbs B)
    (hs : Steady M nbs B T) (hs' : Steady M nbs B T')
    (hB : ∀ c < nbs.length, B c → T c = T' c) : ∀ p < nbs.length, T p = T' p := by
  intro p hp
  have := C105_bounds M nbs B _ 0 0 hc hw ha (steady_sub hc hs hs')
    (fun c h1 h2 => by simp [hB c h1 h2]) p hp
  linarith [this.1, this.2]

/-- The condition that prescribed points can be reached is needed: without it two steady fields can
differ. -/
theorem C105_needs_anchor :
    ∃ (M : Medium) (nbs : List (List Nat)) (B : Nat → Prop) (T T' : Nat → ℝ), Conducting M nbs ∧
      Within nbs nbs.length ∧ Steady M nbs B T ∧ Steady M nbs B T' ∧
      (∀ c < nbs.length, B c → T c = T' c) ∧ T 0 ≠ T' 0 := by
  have hw : Within rodNbs rodNbs.length := by unfold Within; decide
  have key : ∀ t : ℝ, Steady rod rodNbs (fun _ => False) fun _ => t := by
    intro t
    obtain ⟨D, hD⟩ := conducting_ok rod_conducting fun _ => t
    exact ⟨D, hD, fun p _ _ => C104_uniform rod rodNbs _ D p hD fun _ _ => rfl⟩
  exact ⟨rod, rodNbs, fun _ => False, fun _ => 0, fun _ => 1, rod_conducting, hw, key 0, key 1,
    fun _ _ h => h.elim, by norm_num⟩

/-- The rod with both ends prescribed, in its linear steady state. -/
example : Anchored rodNbs (fun k => k ≠ 1) ∧ Steady rod rodNbs (fun k => k ≠ 1) fun k => k := by
  constructor
  · intro p hp
    by_cases h : p = 1
    · subst h
      exact ⟨0, by simp, Relation.ReflTransGen.single ⟨[0, 2], rfl, by simp⟩⟩
    · exact ⟨p, h, Relation.ReflTransGen.refl⟩
  · obtain ⟨D, hD⟩ := conducting_ok rod_conducting fun k => (k : ℝ)
    refine ⟨D, hD, fun p _ hB => ?_⟩
    have hp : p = 1 := by simpa using hB
    subst hp
    rw [(flux_eq hD).2 1]
    have e : bondsAt rodNbs 1 = [⟨1, 0, 1⟩, ⟨1, 2, 2⟩] := by decide
    rw [e]
    have h1 : kernelDenominator rod ⟨1, 0, 1⟩ = kernelDenominator rod ⟨1, 2, 2⟩ := by
      have a : ∀ k : Nat, rod.x k 0 = k := fun _ => rfl
      have b : ∀ k : Nat, rod.x k 1 = 0 := fun _ => rfl
      have c : ∀ k : Nat, rod.x k 2 = 0 := fun _ => rfl
      unfold kernelDenominator spacing len
      simp only [Pi.sub_apply, a, b, c]
      norm_num
    have h2 : quadWeight rod ⟨1, 0, 1⟩ = 1 := rfl
    have h3 : quadWeight rod ⟨1, 2, 2⟩ = 1 := rfl
    simp only [List.map_cons, List.map_nil, List.sum_cons, List.sum_nil, fluxOf, h1, h2, h3]
    push_cast
    ring

end Verif.Diffusion
