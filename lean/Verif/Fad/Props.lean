import Verif.Fad.Assembly
import Verif.Fad.Demo
import Verif.Tangent.IsolatedProps

/-!
# C213, C214: the tangent of the elastic material by automatic differentiation

C213: it is the derivative of the internal force; when it can be computed.
C214: the tangent by finite differences tends to it as the perturbation tends to zero.
-/

noncomputable section

namespace Verif.Fad

open Verif Verif.Neigh Verif.Mech Verif.Tangent
open scoped Classical Topology

theorem getD_lt {l : List Nat} {i : Nat} (h : i < l.length) : l.getD i 0 = l[i] := by
  simp [List.getD_eq_getElem?_getD, h]

theorem comp_gather {gids : List Nat} {i : Nat} (h : i < gids.length) (Y : Nat → ℝ) :
    comp (gather 3 gids Y) i = comp Y (gids.getD i 0) := by
  funext c
  unfold comp gather
  have h1 : (3 * i + (c : Nat)) / 3 = i := by omega
  have h2 : (3 * i + (c : Nat)) % 3 = c := by omega
  rw [h1, h2, List.getElem?_eq_getElem h, getD_lt h]

theorem sound_iff {S : Solid} {Y : Nat → ℝ} {gids : List Nat} (h0 : 0 < gids.length) : S.Sound Y gids ↔
    ∀ b ∈ bondsOf (hoodNbs (gids.length - 1)), (S.hood gids (gather 3 gids Y)).m b.i ≠ 0 ∧
      (S.hood gids (gather 3 gids Y)).dY b ≠ 0 := by
  have hy : ∀ b : Bond, b.i = 0 → b.j < gids.length → ((S.hood gids (gather 3 gids Y)).dY b ≠ 0 ↔
      comp Y (gids.getD b.j 0) ≠ comp Y (gids.getD 0 0)) := by
    intro b hi hj
    rw [← comp_gather hj, ← comp_gather h0]
    unfold Config.dY Config.yd
    rw [Ne, len_eq_zero, sub_eq_zero, hi]
    rfl
  constructor
  · intro h b hb
    obtain ⟨hi, h1, h2⟩ := hood_bond hb
    have hj : b.j < gids.length := by omega
    have hm : gids.getD b.j 0 ∈ gids.tail := by
      rw [getD_lt hj, List.mem_iff_getElem]
      refine ⟨b.j - 1, by rw [List.length_tail]; omega, ?_⟩
      rw [List.getElem_tail]
      congr 1
      omega
    obtain ⟨a1, a2⟩ := h _ hm
    refine ⟨?_, (hy b hi hj).2 a2⟩
    rw [hi]
    exact a1
  · intro h j hj
    obtain ⟨k, hk, e⟩ := List.mem_iff_getElem.1 hj
    rw [List.length_tail] at hk
    have hb : HasBond (hoodNbs (gids.length - 1)) 0 (k + 1) :=
      ⟨_, rfl, List.mem_map.2 ⟨k, List.mem_range.2 hk, rfl⟩⟩
    obtain ⟨b, hb, hi, hbj⟩ := bond_of_has hb
    obtain ⟨a1, a2⟩ := h b hb
    rw [hi] at a1
    refine ⟨a1, ?_⟩
    have := (hy b hi (by omega)).1 a2
    rw [List.getElem_tail] at e
    rw [hbj, getD_lt (by omega), e] at this
    exact this

theorem elasticAd_sound {S : Solid} {Y : Nat → ℝ} {gids : List Nat} (h0 : 0 < gids.length) :
    (∃ f, elasticAd S gids (gather 3 gids Y) = some f) ↔ S.Sound Y gids := by
  rw [sound_iff h0]
  exact elasticAd_iff

/-! ### C213 -/

/-- **C213** The tangent of the elastic material that is computed by automatic differentiation, as it is unless the input says
otherwise, is the derivative of the internal force: near the present configuration all forces exist, and the entry for two
components is the derivative of the one force by the other coordinate. -/
theorem C213_exact_derivative (E : Solid) (P : Settings) (Q : FluxKernel) (F : Fields) (S : Scratch) (parts : List Part)
    (hv : ∀ p ∈ parts, p.Valid) (hn : ∀ h ∈ allHoods parts, h.Nodup) (R : Nat → Finset Nat) (A : Sparse)
    (h : elasticTangent none P .full E Q F S (parts.map Part.proc) (Sparse.zero R) = .ok A) (r c : Nat) :
    IsDerivative (elasticKernel E) F (allHoods parts) r c (A.val r c) := by
  obtain ⟨h1, h2⟩ := adTangent_ok (kind := .full) hv hn (show adTangent .full (elasticAd E) F S _ _ = _ from h)
  have hd : ∀ g ∈ allHoods parts, _ := fun g hg => hood_derivative (hn g hg) (h1 g hg).choose_spec r c
  refine ⟨fun s r => ((allHoods parts).map fun h => hoodForce (elasticKernel E) (bump F.y c s) F.v h r).sum, ?_, ?_⟩
  · filter_upwards [eventually_all fun g hg => (hd g hg).1] with s hs
    exact internalForce_ok hs
  · rw [h2]
    have := sum_derivative (hs := allHoods parts) (v := F.vol (r / 3)) fun g hg => (hd g hg).2
    refine this.congr_deriv ?_
    simp only [Sparse.zero, zero_add]
    congr 1
    apply List.map_congr_left
    intro g _
    rw [if_pos (show Kept .full r c from trivial)]

/-- **C213** The block diagonal tangent consists of the derivatives of the force on a point by its own coordinates. -/
theorem C213_block_diagonal (E : Solid) (P : Settings) (Q : FluxKernel) (F : Fields) (S : Scratch) (parts : List Part)
    (hv : ∀ p ∈ parts, p.Valid) (hn : ∀ h ∈ allHoods parts, h.Nodup) (R : Nat → Finset Nat) (A : Sparse)
    (h : elasticTangent none P .blockDiagonal E Q F S (parts.map Part.proc) (Sparse.zero R) = .ok A) (r c : Nat) :
    if r / 3 = c / 3 then IsDerivative (elasticKernel E) F (allHoods parts) r c (A.val r c) else A.val r c = 0 := by
  obtain ⟨h1, h2⟩ := adTangent_ok (kind := .blockDiagonal) hv hn
    (show adTangent .blockDiagonal (elasticAd E) F S _ _ = _ from h)
  split
  · next hrc =>
    have hd : ∀ g ∈ allHoods parts, _ := fun g hg => hood_derivative (hn g hg) (h1 g hg).choose_spec r c
    refine ⟨fun s r => ((allHoods parts).map fun h => hoodForce (elasticKernel E) (bump F.y c s) F.v h r).sum, ?_, ?_⟩
    · filter_upwards [eventually_all fun g hg => (hd g hg).1] with s hs
      exact internalForce_ok hs
    · rw [h2]
      have := sum_derivative (hs := allHoods parts) (v := F.vol (r / 3)) fun g hg => (hd g hg).2
      refine this.congr_deriv ?_
      simp only [Sparse.zero, zero_add]
      congr 1
      apply List.map_congr_left
      intro g _
      rw [if_pos (show Kept .blockDiagonal r c from hrc.symm)]
  · next hrc =>
    rw [h2]
    simp only [Sparse.zero, zero_add]
    apply List.sum_eq_zero
    intro x hx
    obtain ⟨g, _, rfl⟩ := List.mem_map.1 hx
    exact if_neg fun h => hrc (Eq.symm h)

/-- **C213** The tangent can be assembled, in the sparsity that is allocated and whatever the scratch matrix holds, exactly if
every point has neighbors, none of them at its own position, and has a weighted volume. -/
theorem C213_defined (E : Solid) (P : Settings) (Q : FluxKernel) (F : Fields) (S : Scratch) (parts : List Part)
    (hv : ∀ p ∈ parts, p.Valid) (hn : ∀ h ∈ allHoods parts, h.Nodup) :
    (∃ R A, allocate 3 (parts.map Part.proc) = .ok R ∧
      elasticTangent none P .full E Q F S (parts.map Part.proc) (Sparse.zero R) = .ok A) ↔
    Joined parts ∧ ∀ h ∈ allHoods parts, E.Sound F.y h := by
  constructor
  · rintro ⟨R, A, _, h⟩
    refine ⟨(joined_iff hv).2 (adTangent_joined (kind := .full) hv
      (show adTangent .full (elasticAd E) F S _ _ = _ from h)), fun g hg => ?_⟩
    obtain ⟨h1, _⟩ := adTangent_ok (kind := .full) hv hn (show adTangent .full (elasticAd E) F S _ _ = _ from h)
    exact (elasticAd_sound (allHoods_pos hv hg)).1 (h1 g hg)
  · rintro ⟨hj, h⟩
    exact adTangent_full S hv hn ((joined_iff hv).1 hj) fun g hg => (elasticAd_sound (allHoods_pos hv hg)).2 (h g hg)

/-- **C213** Otherwise the program ends with a message; in no case does the assembly have undefined behavior. -/
theorem C213_terminates (E : Solid) (P : Settings) (Q : FluxKernel) (F : Fields) (S : Scratch) (parts : List Part)
    (hv : ∀ p ∈ parts, p.Valid) (hn : ∀ h ∈ allHoods parts, h.Nodup) (R : Nat → Finset Nat)
    (h : (∃ p ∈ parts, [] ∈ p.nbs) ∨ ∃ g ∈ allHoods parts, ¬ E.Sound F.y g) :
    elasticTangent none P .full E Q F S (parts.map Part.proc) (Sparse.zero R) = .fail .terminate := by
  have tidy : ∀ ps : List Part, (∀ p ∈ ps, p ∈ parts) → ∀ M : Sparse,
      Tidy (adTangent .full (elasticAd E) F S (ps.map Part.proc) M) := by
    intro ps
    induction ps with
    | nil => intro _ M; exact .inl ⟨M, rfl⟩
    | cons p ps ih =>
      intro hps M
      rw [List.map_cons]
      unfold adTangent
      refine Tidy.bind ?_ fun M => ih (fun q hq => hps q (List.mem_cons_of_mem _ hq)) M
      unfold adOne
      rw [Part.hoods_ok (hv p (hps p List.mem_cons_self)), Outcome.ok_bind]
      refine Tidy.bind (Tidy.fold (fun s g => ?_) _ _) fun s => .inl ⟨_, rfl⟩
      unfold adPoint
      refine Tidy.bind ?_ fun SL => Tidy.bind (tidy_addValues _ _ _ _) fun M => .inl ⟨_, rfl⟩
      by_cases hl : g.length ≤ 1
      · right
        unfold adLocal
        rw [bondMap_isolated hl]
        rfl
      cases hA : elasticAd E g (gather 3 g F.y) with
      | none =>
        right
        unfold adLocal
        rw [bondMap_ok (by omega), Outcome.ok_bind, hA]
      | some f =>
        left
        exact adLocal_defined s.1 (by omega) hA
  rcases tidy parts (fun _ h => h) (Sparse.zero R) with ⟨A, hA⟩ | hA
  · rcases h with ⟨p, hp, hi⟩ | ⟨g, hg, hs⟩
    · exact absurd rfl ((joined_iff hv).2 (adTangent_joined hv hA) p hp [] hi)
    obtain ⟨h1, _⟩ := adTangent_ok (kind := .full) hv hn hA
    exact absurd ((elasticAd_sound (allHoods_pos hv hg)).1 (h1 g hg)) hs
  · exact hA

/-- The bar that is stretched to three times its length has a tangent, which is the derivative of its forces. -/
example : ∃ R A, allocate 3 (pair.map Part.proc) = .ok R ∧
    elasticTangent none (settings 1 1) .full bar (fun _ _ => .ub) (stretched 3) fresh (pair.map Part.proc) (Sparse.zero R) = .ok A ∧
    ∀ r c, IsDerivative (elasticKernel bar) (stretched 3) (allHoods pair) r c (A.val r c) := by
  obtain ⟨R, A, hR, hA⟩ := (C213_defined bar (settings 1 1) (fun _ _ => .ub) (stretched 3) fresh pair pair_valid pair_nodup).2
    ⟨pair_joined, bar_sound (by norm_num)⟩
  exact ⟨R, A, hR, hA, C213_exact_derivative bar _ _ _ _ _ pair_valid pair_nodup R A hA⟩

/-- If its two points coincide the program ends. -/
example (R : Nat → Finset Nat) :
    elasticTangent none (settings 1 1) .full bar (fun _ _ => .ub) (stretched 0) fresh (pair.map Part.proc) (Sparse.zero R) =
      .fail .terminate :=
  C213_terminates bar _ _ _ _ _ pair_valid pair_nodup R (.inr ⟨[0, 1], by rw [pair_hoods]; simp, bar_unsound⟩)

/-- A third point without neighbors ends it as well. -/
example (R : Nat → Finset Nat) :
    elasticTangent none (settings 1 1) .full bar (fun _ _ => .ub) (stretched 3) fresh (outlier.map Part.proc) (Sparse.zero R) =
      .fail .terminate := by
  refine C213_terminates bar _ _ _ _ outlier ?_ ?_ R (.inl ⟨_, List.mem_cons_self, by decide⟩)
  · unfold Part.Valid Within outlier
    decide
  · rw [show allHoods outlier = [[0, 1], [1, 0], [2]] by decide]
    decide

example : ∃ A, elasticTangent none (settings 1 1) .blockDiagonal bar (fun _ _ => .ub) (stretched 3) fresh (pair.map Part.proc)
    (Sparse.zero (allocateBlockDiagonal [0, 1])) = .ok A :=
  adTangent_block fresh pair_valid pair_nodup ((joined_iff pair_valid).1 pair_joined)
    (fun g hg => (elasticAd_sound (allHoods_pos pair_valid hg)).2 (bar_sound (by norm_num) g hg))
    (by rw [pair_hoods]; decide)

/-! ### C214 -/

theorem central_tendsto {φ : ℝ → ℝ} {d : ℝ} (h : HasDerivAt φ d 0) :
    Filter.Tendsto (fun e => (φ e - φ (-e)) / (2 * e)) (𝓝[≠] 0) (𝓝 d) := by
  have h1 := h.tendsto_slope_zero
  have h2 : HasDerivAt (fun e => φ (-e)) (-d) 0 := by
    have : HasDerivAt φ d (-0) := by rw [neg_zero]; exact h
    have := this.comp (0 : ℝ) (hasDerivAt_neg (0 : ℝ))
    simpa [Function.comp_def] using this
  have h3 := h2.tendsto_slope_zero
  have h4 := (h1.sub h3).const_mul (1 / 2 : ℝ)
  have e : 1 / 2 * (d - -d) = d := by ring
  rw [e] at h4
  refine h4.congr fun e => ?_
  simp only [zero_add, smul_eq_mul, neg_zero]
  rw [mul_comm 2 e, ← div_div]
  ring

/-- **C214** As the perturbation tends to zero, each entry of the tangent by finite differences, which the parameter "Apply
Automatic Differentiation Jacobian" selects, tends to the entry of the tangent by automatic differentiation. -/
theorem C214_finite_differences (E : Solid) (P : Settings) (hP : Mechanical P) (Q : FluxKernel) (F : Fields)
    (S S' : Scratch) (parts : List Part) (hv : ∀ p ∈ parts, p.Valid) (hn : ∀ h ∈ allHoods parts, h.Nodup)
    (R R' : Nat → Finset Nat) (A : Sparse) (B : ℝ → Sparse)
    (hA : elasticTangent (some true) P .full E Q F S (parts.map Part.proc) (Sparse.zero R) = .ok A)
    (hB : ∀ᶠ e in 𝓝[≠] (0 : ℝ), elasticTangent (some false) { P with epsilon := e } .full E Q F S' (parts.map Part.proc)
      (Sparse.zero R') = .ok (B e)) (I J a b : Nat) (ha : a < 3) (hb : b < 3) :
    Filter.Tendsto (fun e => (B e).val (3 * I + a) (3 * J + b)) (𝓝[≠] 0) (𝓝 (A.val (3 * I + a) (3 * J + b))) := by
  obtain ⟨f, hf, hd⟩ := C213_exact_derivative E P Q F S parts hv hn R A hA (3 * I + a) (3 * J + b)
  have hI : (3 * I + a) / 3 = I := by omega
  rw [hI] at hd
  refine (central_tendsto hd).congr' ?_
  have hneg : ∀ᶠ e in 𝓝 (0 : ℝ), internalForce (elasticKernel E) (bump F.y (3 * J + b) (-e)) F.v (allHoods parts) =
      .ok (f (-e)) := by
    have : Filter.Tendsto (fun e : ℝ => -e) (𝓝 0) (𝓝 0) := by
      simpa using (continuous_neg (G := ℝ)).tendsto 0
    exact this.eventually hf
  have rate : ∀ (Y V V' : Nat → ℝ), internalForce (elasticKernel E) Y V (allHoods parts) =
      internalForce (elasticKernel E) Y V' (allHoods parts) := by
    intro Y V V'
    generalize allHoods parts = hs
    induction hs with
    | nil => rfl
    | cons h hs ih =>
      unfold internalForce
      rw [ih]
      rfl
  filter_upwards [hB, hf.filter_mono nhdsWithin_le_nhds, hneg.filter_mono nhdsWithin_le_nhds] with e h1 h2 h3
  have hP' : Mechanical { P with epsilon := e } := ⟨hP.1, hP.2, hP.3, hP.4⟩
  have := C88_central_difference { P with epsilon := e } hP' (elasticKernel E) Q F S' parts hv hn R' (B e) h1 I J a b ha hb
    (f e) (f (-e)) ((rate _ _ _).trans h2) ((rate _ _ _).trans h3)
  rw [this]
  ring

/-- **C214** The tangent by finite differences does exist for all small perturbations, if that by automatic differentiation
exists. -/
theorem C214_defined (E : Solid) (P : Settings) (hP : Mechanical P) (ht : P.dt ≠ 0) (Q : FluxKernel) (F : Fields)
    (S S' : Scratch) (parts : List Part) (hv : ∀ p ∈ parts, p.Valid) (hn : ∀ h ∈ allHoods parts, h.Nodup)
    (R : Nat → Finset Nat) (A : Sparse)
    (hA : elasticTangent (some true) P .full E Q F S (parts.map Part.proc) (Sparse.zero R) = .ok A) :
    ∃ (R' : Nat → Finset Nat) (B : ℝ → Sparse), allocate 3 (parts.map Part.proc) = .ok R' ∧ ∀ᶠ e in 𝓝[≠] (0 : ℝ),
      elasticTangent (some false) { P with epsilon := e } .full E Q F S' (parts.map Part.proc) (Sparse.zero R') = .ok (B e) := by
  obtain ⟨h1, _⟩ := adTangent_ok (kind := .full) hv hn (show adTangent .full (elasticAd E) F S _ _ = _ from hA)
  have hj := (joined_iff hv).2 (adTangent_joined (kind := .full) hv (show adTangent .full (elasticAd E) F S _ _ = _ from hA))
  obtain ⟨R', hR', _⟩ := allocate_ok 3 parts hv
  have hex : ∀ h ∈ allHoods parts, ∀ᶠ e in 𝓝 (0 : ℝ), ∀ C ∈ dofIds 3 h, ∃ g, elasticKernel E h (gather 3 h (bump F.y C e))
      (gather 3 h F.v) = .ok g := by
    intro h hh
    generalize dofIds 3 h = l
    induction l with
    | nil => simp
    | cons C l ih =>
      filter_upwards [(hood_derivative (hn h hh) (h1 h hh).choose_spec 0 C).1, ih] with e e1 e2 C' hC'
      rcases List.mem_cons.1 hC' with rfl | hC'
      · exact e1
      · exact e2 C' hC'
  have hneg : Filter.Tendsto (fun e : ℝ => -e) (𝓝 0) (𝓝 0) := by
    simpa using (continuous_neg (G := ℝ)).tendsto 0
  have hev := eventually_all hex
  have hev' := hneg.eventually hev
  have key : ∀ e : ℝ, ∃ B, (e ≠ 0 ∧ (∀ h ∈ allHoods parts, ∀ C ∈ dofIds 3 h, ∃ g, elasticKernel E h (gather 3 h (bump F.y C e))
      (gather 3 h F.v) = .ok g) ∧ (∀ h ∈ allHoods parts, ∀ C ∈ dofIds 3 h, ∃ g, elasticKernel E h (gather 3 h (bump F.y C (-e)))
      (gather 3 h F.v) = .ok g)) → elasticTangent (some false) { P with epsilon := e } .full E Q F S' (parts.map Part.proc)
        (Sparse.zero R') = .ok B := by
    intro e
    by_cases hc : (e ≠ 0 ∧ (∀ h ∈ allHoods parts, ∀ C ∈ dofIds 3 h, ∃ g, elasticKernel E h (gather 3 h (bump F.y C e))
      (gather 3 h F.v) = .ok g) ∧ (∀ h ∈ allHoods parts, ∀ C ∈ dofIds 3 h, ∃ g, elasticKernel E h (gather 3 h (bump F.y C (-e)))
      (gather 3 h F.v) = .ok g))
    · have hP' : Mechanical { P with epsilon := e } := ⟨hP.1, hP.2, hP.3, hP.4⟩
      obtain ⟨R2, B, hR2, hB⟩ := C87_assembly_defined_partial { P with epsilon := e } hP' hc.1 ht (elasticKernel E) Q F S' parts hv hn (by
        rintro h hh C hC s (rfl | rfl)
        · exact hc.2.1 h hh C (mem_dofIds.2 ⟨by omega, hC⟩)
        · exact hc.2.2 h hh C (mem_dofIds.2 ⟨by omega, hC⟩)) hj
      rw [hR'] at hR2
      cases hR2
      exact ⟨B, fun _ => hB⟩
    · exact ⟨Sparse.zero R', fun h => absurd h hc⟩
  choose B hB using key
  refine ⟨R', B, hR', ?_⟩
  filter_upwards [hev.filter_mono nhdsWithin_le_nhds, hev'.filter_mono nhdsWithin_le_nhds, self_mem_nhdsWithin] with e e1 e2 e3
  exact hB e ⟨e3, e1, e2⟩

/-- The hypotheses are met by the stretched bar. -/
example : ∃ (R R' : Nat → Finset Nat) (A : Sparse) (B : ℝ → Sparse),
    elasticTangent (some true) (settings 1 1) .full bar (fun _ _ => .ub) (stretched 3) fresh (pair.map Part.proc) (Sparse.zero R) =
      .ok A ∧
    (∀ᶠ e in 𝓝[≠] (0 : ℝ), elasticTangent (some false) { settings 1 1 with epsilon := e } .full bar (fun _ _ => .ub) (stretched 3) fresh
      (pair.map Part.proc) (Sparse.zero R') = .ok (B e)) ∧
    Filter.Tendsto (fun e => (B e).val 0 3) (𝓝[≠] 0) (𝓝 (A.val 0 3)) := by
  obtain ⟨R, A, hR, hA⟩ := (C213_defined bar (settings 1 1) (fun _ _ => .ub) (stretched 3) fresh pair pair_valid pair_nodup).2
    ⟨pair_joined, bar_sound (by norm_num)⟩
  obtain ⟨R', B, _, hB⟩ := C214_defined bar (settings 1 1) (settings_mech _ _) one_ne_zero (fun _ _ => .ub) (stretched 3) fresh fresh
    pair pair_valid pair_nodup R A hA
  exact ⟨R, R', A, B, hA, hB, C214_finite_differences bar (settings 1 1) (settings_mech _ _) (fun _ _ => .ub) (stretched 3) fresh fresh pair
    pair_valid pair_nodup R R' A B hA hB 0 1 0 0 (by omega) (by omega)⟩

end Verif.Fad
