import Verif.Porous.Assembly
import Verif.Fad.Props

/-!
# C233, C234: the tangent of the coupled material

C233: it is the derivative of forces and flows by coordinates and pressures; when it can be computed.
C234: with the sparsity of the block diagonal it cannot be assembled at all.
-/

noncomputable section

namespace Verif.Porous

open Verif Verif.Neigh Verif.Mech Verif.Tangent Verif.Fad
open Verif.Diffusion (Fluid viscosityAt)
open scoped Classical Topology

theorem viscosityAt_iff (C : Config) (P : Fluid) (i : Nat) : viscosityAt C P i ≠ 0 ↔ P.viscosity ≠ 0 := by
  unfold viscosityAt
  split
  · rfl
  · exact ⟨fun h e => h (by rw [e, zero_mul]), fun h => mul_ne_zero h (Real.exp_ne_zero _)⟩

theorem coupledAd_sound {B : Body} {X : State} {gids : List Nat} (h1 : 1 < gids.length) :
    (∃ f, coupledAd B gids (gather 3 gids X.y) (gather 1 gids X.p) = some f) ↔ B.Sound X gids := by
  rw [coupledAd_iff]
  unfold Body.Sound
  rw [sound_iff (by omega)]
  constructor
  · intro h
    refine ⟨fun b hb => ⟨(h b hb).1, (h b hb).2.1⟩, ?_⟩
    have hb : HasBond (hoodNbs (gids.length - 1)) 0 1 :=
      ⟨_, rfl, List.mem_map.2 ⟨0, List.mem_range.2 (by omega), rfl⟩⟩
    obtain ⟨b, hb, _⟩ := bond_of_has hb
    exact ⟨(viscosityAt_iff _ _ _).1 (h b hb).2.2.1, (h b hb).2.2.2⟩
  · rintro ⟨h, hv, hh⟩ b hb
    exact ⟨(h b hb).1, (h b hb).2, (viscosityAt_iff _ _ _).2 hv, hh⟩

/-! ### C233 -/

/-- **C233** The tangent of the coupled material is the derivative of forces and flows: near the present coordinates and pressures
they exist, and the entry for two unknowns is the derivative of the force, or the flow, that belongs to the one by the
coordinate, or the pressure, that is the other. -/
theorem C233_exact_derivative (B : Body) (X : State) (S : Scratch) (parts : List Part) (hv : ∀ p ∈ parts, p.Valid)
    (hn : ∀ h ∈ allHoods parts, h.Nodup) (A : Nat → Finset Nat) (M : Sparse)
    (h : coupledTangent none .full B X S (parts.map Part.proc) (Sparse.zero A) = .ok M) (R Q : Nat) :
    IsRate (coupledRates B) X (allHoods parts) R Q (M.val R Q) := by
  obtain ⟨h1, h2⟩ := adTangent_ok hv hn (show adTangent .full (coupledAd B) X S _ _ = _ from h)
  have hd : ∀ g ∈ allHoods parts, _ := fun g hg => hood_derivative (hn g hg) (h1 g hg).choose_spec R Q
  refine ⟨fun s => (fun r => ((allHoods parts).map fun h => (hoodRates (coupledRates B) (moved X Q s) h).1 r).sum,
    fun r => ((allHoods parts).map fun h => (hoodRates (coupledRates B) (moved X Q s) h).2 r).sum), ?_, ?_⟩
  · filter_upwards [eventually_all fun g hg => (hd g hg).1] with s hs
    exact totalRates_ok hs
  · rw [h2]
    have := sum_derivative (hs := allHoods parts) (v := X.vol (R / 4)) fun g hg => (hd g hg).2
    simp only [rowOf_sum]
    refine this.congr_deriv ?_
    simp only [Sparse.zero, zero_add]

/-- **C233** The tangent can be assembled, in the sparsity that is allocated for four unknowns and whatever the scratch matrix
holds, exactly if every point has neighbors, none of them at its own position, and a weighted volume, and neither the
viscosity nor the horizon is zero (unless there are no points). -/
theorem C233_defined (B : Body) (X : State) (S : Scratch) (parts : List Part) (hv : ∀ p ∈ parts, p.Valid)
    (hn : ∀ h ∈ allHoods parts, h.Nodup) :
    (∃ A M, allocate 4 (parts.map Part.proc) = .ok A ∧
      coupledTangent none .full B X S (parts.map Part.proc) (Sparse.zero A) = .ok M) ↔
    Joined parts ∧ ∀ h ∈ allHoods parts, B.Sound X h := by
  constructor
  · rintro ⟨A, M, _, h⟩
    have hj := adTangent_joined hv (show adTangent .full (coupledAd B) X S _ _ = _ from h)
    refine ⟨(joined_iff hv).2 hj, fun g hg => ?_⟩
    obtain ⟨h1, _⟩ := adTangent_ok hv hn (show adTangent .full (coupledAd B) X S _ _ = _ from h)
    exact (coupledAd_sound (hj g hg)).1 (h1 g hg)
  · rintro ⟨hj, h⟩
    have hj' := (joined_iff hv).1 hj
    exact adTangent_full S hv hn hj' fun g hg => (coupledAd_sound (hj' g hg)).2 (h g hg)

theorem tangent_tidy (kind : Kind) (A : AdRates) (X : State) (S : Scratch) : ∀ parts : List Part, (∀ p ∈ parts, p.Valid) → ∀ M : Sparse,
    Tidy (adTangent kind A X S (parts.map Part.proc) M)
  | [], _, M => .inl ⟨M, rfl⟩
  | p :: ps, hv, M => by
    rw [List.map_cons]
    unfold adTangent
    refine Tidy.bind ?_ fun M => tangent_tidy kind A X S ps (fun q hq => hv q (List.mem_cons_of_mem _ hq)) M
    unfold adOne
    rw [Part.hoods_ok (hv p List.mem_cons_self), Outcome.ok_bind]
    refine Tidy.bind (Tidy.fold (fun s g => ?_) _ _) fun s => .inl ⟨_, rfl⟩
    unfold adPoint
    refine Tidy.bind ?_ fun SL => Tidy.bind (tidy_addLocal _ _ _ _ _) fun M => .inl ⟨_, rfl⟩
    by_cases hl : g.length ≤ 1
    · right
      unfold adLocal
      rw [bondMap_isolated hl]
      rfl
    cases hA : A g (gather 3 g X.y) (gather 1 g X.p) with
    | none =>
      right
      unfold adLocal
      rw [bondMap_ok (by omega), Outcome.ok_bind, hA]
    | some f =>
      left
      exact adLocal_defined s.1 (by omega) hA

/-- **C233** Otherwise the program ends with a message; in no case does the assembly have undefined behavior. -/
theorem C233_terminates (B : Body) (X : State) (S : Scratch) (parts : List Part) (hv : ∀ p ∈ parts, p.Valid)
    (hn : ∀ h ∈ allHoods parts, h.Nodup) (A : Nat → Finset Nat)
    (h : (∃ p ∈ parts, [] ∈ p.nbs) ∨ ∃ g ∈ allHoods parts, ¬ B.Sound X g) :
    coupledTangent none .full B X S (parts.map Part.proc) (Sparse.zero A) = .fail .terminate := by
  rcases tangent_tidy .full (coupledAd B) X S parts hv (Sparse.zero A) with ⟨M, hM⟩ | hM
  · have hj := adTangent_joined hv hM
    rcases h with ⟨p, hp, hi⟩ | ⟨g, hg, hs⟩
    · exact absurd rfl ((joined_iff hv).2 hj p hp [] hi)
    obtain ⟨h1, _⟩ := adTangent_ok hv hn hM
    exact absurd ((coupledAd_sound (hj g hg)).1 (h1 g hg)) hs
  · exact hM

/-- **C233** If the input asks for finite differences instead the program stops with an error, for whatever body. -/
theorem C233_no_differences (kind : Kind) (B : Body) (X : State) (S : Scratch) (prs : List Proc) (M : Sparse) :
    coupledTangent (some false) kind B X S prs M = .fail .runtimeError ∧
    coupledTangent (some true) kind B X S prs M = coupledTangent none kind B X S prs M := ⟨rfl, rfl⟩

/-- The bar of two points, filled with a fluid. -/
def wet : Body := ⟨bar, ⟨1, 1, 1, 1 / 2, 1, 10, 0⟩, fun _ => 1⟩

/-- The second point is moved to the position `s`; the pressures are 1 and 2. -/
def pulled (s : ℝ) : State := ⟨(stretched s).y, fun i => i + 1, fun _ => 1⟩

theorem wet_sound {s : ℝ} (hs : s ≠ 0) : ∀ h ∈ allHoods pair, wet.Sound (pulled s) h :=
  fun h hh => ⟨bar_sound hs h hh, by norm_num [wet], by norm_num [wet, bar]⟩

/-- The bar that is stretched to three times its length has a tangent. -/
example : ∃ A M, allocate 4 (pair.map Part.proc) = .ok A ∧
    coupledTangent none .full wet (pulled 3) fresh (pair.map Part.proc) (Sparse.zero A) = .ok M ∧
    ∀ R Q, IsRate (coupledRates wet) (pulled 3) (allHoods pair) R Q (M.val R Q) := by
  obtain ⟨A, M, hA, hM⟩ := (C233_defined wet (pulled 3) fresh pair pair_valid pair_nodup).2
    ⟨pair_joined, wet_sound (by norm_num)⟩
  exact ⟨A, M, hA, hM, C233_exact_derivative wet _ _ _ pair_valid pair_nodup A M hM⟩

/-- If its two points coincide the program ends. -/
example (A : Nat → Finset Nat) :
    coupledTangent none .full wet (pulled 0) fresh (pair.map Part.proc) (Sparse.zero A) = .fail .terminate :=
  C233_terminates wet _ _ _ pair_valid pair_nodup A (.inr ⟨[0, 1], by rw [pair_hoods]; simp, fun h => bar_unsound h.1⟩)

/-! ### C234 -/

theorem fold_keeps {α β : Type} {f : α → β → Outcome α} {P : α → Prop} {G : β → Prop} :
    ∀ (l : List β) (a a' : α), (∀ s, ∀ b ∈ l, ∀ s', P s → f s b = .ok s' → P s' ∧ G b) → P a → l.foldlM f a = .ok a' →
      P a' ∧ ∀ b ∈ l, G b
  | [], a, a', _, hp, h => by
    cases h
    exact ⟨hp, by simp⟩
  | b :: l, a, a', hf, hp, h => by
    obtain ⟨a1, h1, h⟩ := BC.foldlM_cons_ok.1 h
    obtain ⟨p1, g1⟩ := hf a b List.mem_cons_self a1 hp h1
    obtain ⟨p2, g2⟩ := fold_keeps l a1 a' (fun s c hc => hf s c (List.mem_cons_of_mem _ hc)) p1 h
    refine ⟨p2, fun c hc => ?_⟩
    rcases List.mem_cons.1 hc with rfl | hc
    · exact g1
    · exact g2 c hc

/-- Rows to which a block was added are there. -/
theorem block_rows {idx : List Nat} {L : Nat → Nat → ℝ} {M M' : Sparse} (h : addBlockDiagonalValues idx L M = .ok M') :
    M'.pattern = M.pattern ∧ ∀ r ∈ idx, 3 * (r / 3) ∈ M.pattern r := by
  unfold addBlockDiagonalValues at h
  obtain ⟨a, b⟩ := fold_keeps (P := fun A : Sparse => A.pattern = M.pattern) (G := fun x : Nat × Nat => 3 * (x.1 / 3) ∈ M.pattern x.1)
    _ _ _ (by
      intro s x _ s' hs h
      unfold addBlockDiagonalRow at h
      obtain ⟨i1, _, h⟩ := Outcome.bind_eq_ok.1 h
      obtain ⟨i2, _, h⟩ := Outcome.bind_eq_ok.1 h
      obtain ⟨i3, _, h⟩ := Outcome.bind_eq_ok.1 h
      refine ⟨(addRow_ok h).1.trans hs, ?_⟩
      unfold addRow at h
      obtain ⟨s1, h1, _⟩ := BC.foldlM_cons_ok.1 h
      unfold Sparse.add at h1
      split at h1
      · next hm => rw [← hs]; exact hm
      · cases h1) rfl h
  refine ⟨a, fun r hr => ?_⟩
  obtain ⟨i, hi⟩ := List.mem_iff_getElem?.1 hr
  exact b (r, i) (List.mem_zipIdx_iff_getElem?.2 hi)

theorem block_hoods {A : AdRates} {X : State} {S : Scratch} : ∀ {parts : List Part}, (∀ p ∈ parts, p.Valid) → ∀ {M M' : Sparse},
    adTangent .blockDiagonal A X S (parts.map Part.proc) M = .ok M' →
    ∀ h ∈ allHoods parts, ∀ r ∈ dofIds 4 h, 3 * (r / 3) ∈ M.pattern r
  | [], _, _, _, _, h, hh => by cases hh
  | p :: parts, hv, M, M', h, g, hg => by
    rw [List.map_cons] at h
    unfold adTangent at h
    obtain ⟨M1, h1, h⟩ := Outcome.bind_eq_ok.1 h
    unfold adOne at h1
    rw [Part.hoods_ok (hv p (List.mem_cons_self ..)), Outcome.ok_bind] at h1
    obtain ⟨s, h2, h1⟩ := Outcome.bind_eq_ok.1 h1
    obtain ⟨a, b⟩ := fold_keeps (P := fun s : Scratch × Sparse => s.2.pattern = M.pattern)
      (G := fun h : List Nat => ∀ r ∈ dofIds 4 h, 3 * (r / 3) ∈ M.pattern r) _ _ _ (by
        intro s h _ s' hs e
        unfold adPoint at e
        obtain ⟨_, _, e⟩ := Outcome.bind_eq_ok.1 e
        obtain ⟨M2, e2, e⟩ := Outcome.bind_eq_ok.1 e
        cases e
        obtain ⟨c, d⟩ := block_rows e2
        exact ⟨c.trans hs, fun r hr => hs ▸ d r hr⟩) rfl h2
    cases h1
    obtain ⟨q, hq, hgq⟩ := List.mem_flatMap.1 hg
    rcases List.mem_cons.1 hq with rfl | hq
    · exact b g hgq
    · rw [← a]
      exact block_hoods (fun q hq => hv q (List.mem_cons_of_mem _ hq)) h g (List.mem_flatMap.2 ⟨q, hq, hgq⟩)

/-- **C234** With the sparsity of the block diagonal, which has three rows and blocks of three by three for each point, the
tangent of the coupled material cannot be assembled: whatever the body, its state and its distribution to processors, the
program ends with a message, since the unknowns of the point with the largest number have no row. -/
theorem C234_no_block_diagonal (B : Body) (X : State) (S : Scratch) (parts : List Part) (hv : ∀ p ∈ parts, p.Valid)
    (gids : List Nat) (hne : allHoods parts ≠ []) (hg : ∀ g, g ∈ gids ↔ ∃ h ∈ allHoods parts, g ∈ h) :
    coupledTangent none .blockDiagonal B X S (parts.map Part.proc) (Sparse.zero (allocateBlockDiagonal gids)) =
      .fail .terminate := by
  rcases tangent_tidy .blockDiagonal (coupledAd B) X S parts hv (Sparse.zero (allocateBlockDiagonal gids)) with ⟨M, hM⟩ | hM
  · exfalso
    have rows := block_hoods hv hM
    have hgn : gids ≠ [] := by
      obtain ⟨h, hh⟩ := List.exists_mem_of_ne_nil _ hne
      have hp := allHoods_pos hv hh
      exact List.ne_nil_of_mem ((hg h[0]).2 ⟨h, hh, List.getElem_mem _⟩)
    obtain ⟨m, hm, hmax⟩ : ∃ m ∈ gids, ∀ g ∈ gids, g ≤ m := by
      obtain ⟨m, hm, hx⟩ := gids.toFinset.exists_max_image id (List.toFinset_nonempty_iff _ |>.2 hgn)
      exact ⟨m, List.mem_toFinset.1 hm, fun g hg => hx g (List.mem_toFinset.2 hg)⟩
    obtain ⟨h, hh, hmh⟩ := (hg m).1 hm
    have := rows h hh (4 * m + 3) (mem_dofIds.2 ⟨by omega, by rwa [show (4 * m + 3) / 4 = m by omega]⟩)
    unfold Sparse.zero allocateBlockDiagonal at this
    simp only at this
    split at this
    · next hc =>
      have := hmax _ hc
      omega
    · simp at this
  · exact hM

/-- The bar that has a full tangent. -/
example : coupledTangent none .blockDiagonal wet (pulled 3) fresh (pair.map Part.proc)
    (Sparse.zero (allocateBlockDiagonal [0, 1])) = .fail .terminate := by
  refine C234_no_block_diagonal wet _ _ pair pair_valid [0, 1] (by rw [pair_hoods]; simp) fun g => ?_
  rw [pair_hoods]
  simp only [List.mem_cons, List.not_mem_nil, or_false, exists_eq_or_imp, exists_eq_left]
  tauto

end Verif.Porous
