import Verif.Fad.FlowSpec
import Verif.Fad.PlasticSkew

/-! # Property theorems: symmetry of the tangent of the elastic-plastic material while it yields (C223) -/

noncomputable section

namespace Verif.Fad

open Verif Verif.Neigh Verif.Mech Verif.Tangent Verif.Energy Verif.Lps
open scoped Classical Topology Matrix

theorem local_plain {S : PlasticSolid} {h : List Nat} (y : Nat → ℝ) (hd : S.Whole h) (ho : S.Even h) :
    Plain (S.local h y) (hoodNbs (h.length - 1)) := by
  intro b hb
  rw [hood_bonds] at hb
  obtain ⟨t, ht, rfl⟩ := List.mem_map.1 hb
  have ht := List.mem_range.1 ht
  exact ⟨hd t ht, ho t ht⟩

theorem local_mean {S : PlasticSolid} {h : List Nat} {y : Nat → ℝ} (hm : S.m (h.getD 0 0) ≠ 0) (ho : S.Even h) (hi : S.Isochoric h) :
    trialMean (S.local h y) (S.edp (h.getD 0 0)) (theta' (S.local h y) (hoodNbs (h.length - 1)) 0) (hoodNbs (h.length - 1)) = 0 := by
  have hw : (S.local h y).m 0 = ((bondsOf (hoodNbs (h.length - 1))).map fun b =>
      (S.local h y).om b * (S.local h y).zeta b ^ 2 * (S.local h y).v b.j).sum :=
    Fad.weighed hi.weighed (List.mem_singleton_self h) y
  have hm' : (S.local h y).m 0 ≠ 0 := hm
  have hf : ((bondsOf (hoodNbs (h.length - 1))).map fun b =>
      S.edp (h.getD 0 0) b.b * (S.local h y).zeta b * (S.local h y).v b.j).sum = 0 := by
    rw [hood_bonds, List.map_map, ← hi.flow, sum_range_list]
    rfl
  have hb : ∀ b ∈ bondsOf (hoodNbs (h.length - 1)), (S.local h y).damage b.b = 0 ∧ (S.local h y).om b = 1 := by
    intro b hb
    rw [hood_bonds] at hb
    obtain ⟨t, ht, rfl⟩ := List.mem_map.1 hb
    have ht := List.mem_range.1 ht
    exact ⟨hi.damage t ht, ho t ht⟩
  have ht : theta' (S.local h y) (hoodNbs (h.length - 1)) 0 = ((bondsOf (hoodNbs (h.length - 1))).map fun b =>
      3 * kap (S.local h y) b * (S.local h y).zeta b * ((S.local h y).dY b - (S.local h y).zeta b) / (S.local h y).m 0).sum := by
    unfold theta' bondsAt
    rw [filter_hood]
    rfl
  unfold trialMean
  have e : ∀ b ∈ bondsOf (hoodNbs (h.length - 1)), (1 - (S.local h y).damage b.b) * (S.local h y).v b.j *
      trialOf (S.local h y) (S.edp (h.getD 0 0)) (theta' (S.local h y) (hoodNbs (h.length - 1)) 0) b * (S.local h y).zeta b =
      (S.local h y).m 0 / 3 * (3 * kap (S.local h y) b * (S.local h y).zeta b * ((S.local h y).dY b - (S.local h y).zeta b) / (S.local h y).m 0) +
      (-(theta' (S.local h y) (hoodNbs (h.length - 1)) 0 / 3) * ((S.local h y).om b * (S.local h y).zeta b ^ 2 * (S.local h y).v b.j) +
       -1 * (S.edp (h.getD 0 0) b.b * (S.local h y).zeta b * (S.local h y).v b.j)) := by
    intro b hbm
    obtain ⟨b2, b3⟩ := hb b hbm
    unfold trialOf kap
    rw [b2, b3]
    generalize theta' _ _ _ = t
    field_simp
    ring
  rw [List.map_congr_left e, List.sum_map_add, List.sum_map_add, List.sum_map_mul_left, List.sum_map_mul_left, List.sum_map_mul_left,
    ← ht, ← hw, hf]
  ring

/-- The skew part of what a neighborhood adds to the tangent. -/
theorem hood_skew {E : PlasticSolid} (hE : E.Ductile) {Y : Nat → ℝ} {g : List Nat} (h0 : 0 < g.length)
    (hf : ∃ f, plasticAd E g (gather 3 g Y) = some f) (hd : E.Whole g) (ho : E.Even g) (w d : Nat → V3) :
    E.m (g.getD 0 0) ≠ 0 ∧ (∀ b ∈ bondsOf (hoodNbs (g.length - 1)), (E.local g (gather 3 g Y)).dY b ≠ 0) ∧
    (¬ E.Yields Y g → plasticHood E Y g w d - plasticHood E Y g d w = 0) ∧
    (E.Yields Y g → ∃ k : ℝ, 0 < k ∧ plasticHood E Y g w d - plasticHood E Y g d w =
      E.v (g.getD 0 0) * (15 * E.mu / E.m (g.getD 0 0)) ^ 3 * k *
      trialMean (E.local g (gather 3 g Y)) (E.edp (g.getD 0 0)) (theta' (E.local g (gather 3 g Y)) (hoodNbs (g.length - 1)) 0) (hoodNbs (g.length - 1)) *
      (thetaRate (E.local g (gather 3 g Y)) (hoodNbs (g.length - 1)) (pulled g w) 0 * trialWork (E.local g (gather 3 g Y)) (E.edp (g.getD 0 0))
        (theta' (E.local g (gather 3 g Y)) (hoodNbs (g.length - 1)) 0) (hoodNbs (g.length - 1)) (pulled g d) -
      thetaRate (E.local g (gather 3 g Y)) (hoodNbs (g.length - 1)) (pulled g d) 0 * trialWork (E.local g (gather 3 g Y)) (E.edp (g.getD 0 0))
        (theta' (E.local g (gather 3 g Y)) (hoodNbs (g.length - 1)) 0) (hoodNbs (g.length - 1)) (pulled g w))) := by
  obtain ⟨f, hf⟩ := hf
  obtain ⟨hm, hb, _⟩ := plasticAd_parts hf 0
  obtain ⟨_, hpos⟩ := yieldLimit_ok hE
  have hdY : ∀ b ∈ bondsOf (hoodNbs (g.length - 1)), (E.local g (gather 3 g Y)).dY b ≠ 0 := by
    intro b hb'
    obtain ⟨q, hq⟩ := hb b hb'
    exact (bondLength_val (S := E.toSolid) (gids := g) hq).2
  have ht0 : 0 ≤ E.trial Y g := by
    rw [← trial_eq h0]
    exact hoodNorm_nonneg hE.v _ _
  have hsq := Real.mul_self_sqrt ht0
  have hn : ∀ q, stepOf E.yieldLimit (E.trial Y g) = some q → q ≠ 0 := by
    intro q hq h
    unfold stepOf at hq
    split at hq
    · next hc =>
      cases hq
      rw [h] at hc
      simp at hc
      linarith
    · cases hq
  refine ⟨hm, hdY, fun hy => ?_, fun hy => ?_⟩
  · have hst : stepOf E.yieldLimit (E.trial Y g) = none := by
      unfold stepOf
      rw [if_neg]
      unfold PlasticSolid.Yields at hy
      linarith
    unfold plasticHood
    rw [hst]
    exact plasticForm_skew (norm := none) (local_plain _ hd ho) hm hdY (by intro q hq; cases hq) (pulled g w) (pulled g d)
  · have hst : stepOf E.yieldLimit (E.trial Y g) = some (Real.sqrt (E.trial Y g)) := by
      unfold stepOf
      rw [if_pos]
      unfold PlasticSolid.Yields at hy
      linarith
    have hq : 0 < Real.sqrt (E.trial Y g) := lt_of_le_of_ne (Real.sqrt_nonneg _) (Ne.symm (hn _ hst))
    have h2 : 0 < Real.sqrt (2 * E.yieldLimit) := Real.sqrt_pos.2 (by linarith)
    refine ⟨Real.sqrt (2 * E.yieldLimit) / Real.sqrt (E.trial Y g) ^ 3 / 3, by positivity, ?_⟩
    unfold plasticHood
    rw [hst]
    refine (plasticForm_skew (norm := some (Real.sqrt (E.trial Y g))) (local_plain _ hd ho) hm hdY
      (by intro q e; cases e; exact hq.ne') (pulled g w) (pulled g d)).trans ?_
    simp only
    rw [show (E.local g (gather 3 g Y)).v 0 = E.v (g.getD 0 0) from rfl, show (E.local g (gather 3 g Y)).m 0 = E.m (g.getD 0 0) from rfl,
      show E.const.mu = E.mu from rfl]
    ring

/-- **C223** The tangent of the elastic-plastic material is symmetric, if the influence function is one, bonds are intact or
broken, and each point that yields has no damaged bond and plastic extensions that do not change its volume (as C224 shows
they do not).  Missing: points that yield and have broken bonds, for which it is false, see `C223_broken_not_symmetric`. -/
theorem C223_symmetric_partial (E : PlasticSolid) (hE : E.Ductile) (P : Settings) (kind : Kind) (Q : FluxKernel)
    (F : Fields) (hvol : F.vol = E.v) (S : Scratch) (parts : List Part) (hv : ∀ p ∈ parts, p.Valid) (hn : ∀ h ∈ allHoods parts, h.Nodup)
    (hb : ∀ h ∈ allHoods parts, E.Whole h ∧ E.Even h ∧ (E.Yields F.y h → E.Isochoric h)) (R : Nat → Finset Nat) (A : Sparse)
    (hA : elasticPlasticJacobian none P kind E Q F S (parts.map Part.proc) (Sparse.zero R) = .ok A) (r c : Nat) :
    A.val r c = A.val c r := by
  obtain ⟨h1, h2⟩ := plasticTangent_eq hE hvol hv hn hA
  rw [h2, h2]
  congr 1
  apply List.map_congr_left
  intro g hg
  obtain ⟨hd, ho, hi⟩ := hb g hg
  obtain ⟨hm, _, s1, s2⟩ := hood_skew hE (allHoods_pos hv hg) (h1 g hg) hd ho (single r) (single c)
  rw [← sub_eq_zero]
  by_cases hy : E.Yields F.y g
  · obtain ⟨k, _, hk⟩ := s2 hy
    rw [hk, local_mean hm ho (hi hy)]
    ring
  · exact s1 hy

/-! ### A yielding point with a broken bond -/

/-- Four points on a line, the first bonded to the others; the bond to the last one is broken. -/
def quartet : PlasticSolid where
  K := 1
  mu := 1
  horizon := 2
  omega := fun _ _ => 1
  thermal := none
  x := fun i => if i = 1 then ![1, 0, 0] else if i = 2 then ![-1, 0, 0] else if i = 3 then ![2, 0, 0] else 0
  v := fun _ => 1
  m := fun i => if i = 0 then 6 else if i = 3 then 4 else 1
  damage := fun i t => if i = 3 ∨ i = 0 ∧ t = 2 then 1 else 0
  yieldStress := 1
  planar := none
  edp := fun _ _ => 0

/-- Their bonds, on one processor. -/
def quartetParts : List Part := [⟨[0, 1, 2, 3], [[1, 2, 3], [0], [0], [0]]⟩]

/-- The second and the last point are moved away by one. -/
def quartetMoved : Fields :=
  ⟨fun k => if k = 3 then 2 else if k = 6 then -1 else if k = 9 then 3 else 0, fun _ => 0, fun _ => 0, fun _ => 1⟩

theorem quartet_hoods : allHoods quartetParts = [[0, 1, 2, 3], [1, 0], [2, 0], [3, 0]] := by decide

theorem quartet_valid : ∀ p ∈ quartetParts, p.Valid := by
  unfold Part.Valid Within quartetParts
  decide

theorem quartet_nodup : ∀ h ∈ allHoods quartetParts, h.Nodup := by
  rw [quartet_hoods]
  decide

theorem quartet_joined : Joined quartetParts := by
  unfold Tangent.Joined quartetParts
  decide

theorem quartet_ductile : quartet.Ductile where
  yieldStress := one_ne_zero
  horizon := by norm_num [quartet]
  planar := by intro t ht; cases ht
  v _ := zero_le_one

theorem quartet_comp : comp quartetMoved.y 0 = 0 ∧ comp quartetMoved.y 1 = ![2, 0, 0] ∧ comp quartetMoved.y 2 = ![-1, 0, 0] ∧
    comp quartetMoved.y 3 = ![3, 0, 0] := by
  refine ⟨?_, ?_, ?_, ?_⟩ <;> funext c <;> fin_cases c <;> simp [comp, quartetMoved]

theorem quartet_sound : ∀ h ∈ allHoods quartetParts, quartet.toSolid.Sound quartetMoved.y h := by
  obtain ⟨c0, c1, c2, c3⟩ := quartet_comp
  have n : ∀ t : ℝ, t ≠ 0 → (![t, 0, 0] : V3) ≠ 0 := by
    intro t ht e
    exact ht (congrFun e 0)
  have n1 : comp quartetMoved.y 1 ≠ comp quartetMoved.y 0 := by rw [c0, c1]; exact n _ (by norm_num)
  have n2 : comp quartetMoved.y 2 ≠ comp quartetMoved.y 0 := by rw [c0, c2]; exact n _ (by norm_num)
  have n3 : comp quartetMoved.y 3 ≠ comp quartetMoved.y 0 := by rw [c0, c3]; exact n _ (by norm_num)
  rw [quartet_hoods]
  intro h hh j hj
  simp only [List.mem_cons, List.not_mem_nil, or_false] at hh
  rcases hh with rfl | rfl | rfl | rfl
  · simp only [List.tail_cons, List.mem_cons, List.not_mem_nil, or_false] at hj
    refine ⟨by norm_num [quartet], ?_⟩
    rcases hj with rfl | rfl | rfl
    · exact n1
    · exact n2
    · exact n3
  · simp only [List.tail_cons, List.mem_cons, List.not_mem_nil, or_false] at hj
    subst hj
    exact ⟨by norm_num [quartet], n1.symm⟩
  · simp only [List.tail_cons, List.mem_cons, List.not_mem_nil, or_false] at hj
    subst hj
    exact ⟨by norm_num [quartet], n2.symm⟩
  · simp only [List.tail_cons, List.mem_cons, List.not_mem_nil, or_false] at hj
    subst hj
    exact ⟨by norm_num [quartet], n3.symm⟩

theorem neg_x (t : ℝ) : 0 - (![t, 0, 0] : V3) = ![-t, 0, 0] := by
  funext c
  fin_cases c <;> simp

theorem quartet_ref : quartet.bondRef [0, 1, 2, 3] 0 = 1 ∧ quartet.bondRef [0, 1, 2, 3] 1 = 1 ∧ quartet.bondRef [0, 1, 2, 3] 2 = 2 ∧
    quartet.bondRef [1, 0] 0 = 1 ∧ quartet.bondRef [2, 0] 0 = 1 := by
  refine ⟨?_, ?_, ?_, ?_, ?_⟩ <;> simp [PlasticSolid.bondRef, quartet, len_x, neg_x]

theorem quartet_ext : quartet.bondExt quartetMoved.y [0, 1, 2, 3] 0 = 1 ∧ quartet.bondExt quartetMoved.y [0, 1, 2, 3] 1 = 0 ∧
    quartet.bondExt quartetMoved.y [0, 1, 2, 3] 2 = 1 ∧
    quartet.bondExt quartetMoved.y [1, 0] 0 = 1 ∧ quartet.bondExt quartetMoved.y [2, 0] 0 = 0 := by
  obtain ⟨c0, c1, c2, c3⟩ := quartet_comp
  obtain ⟨r1, r2, r3, r4, r5⟩ := quartet_ref
  unfold PlasticSolid.bondExt
  rw [r1, r2, r3, r4, r5]
  simp only [List.getD_cons_zero, List.getD_cons_succ, c0, c1, c2, c3, sub_zero, zero_sub, Nat.reduceAdd]
  refine ⟨?_, ?_, ?_, ?_, ?_⟩ <;> simp [neg_x, len_x] <;> norm_num

theorem quartet_trial : quartet.trial quartetMoved.y [0, 1, 2, 3] = 325 / 72 ∧ quartet.trial quartetMoved.y [1, 0] = 0 ∧
    quartet.trial quartetMoved.y [2, 0] = 0 ∧ quartet.trial quartetMoved.y [3, 0] = 0 := by
  obtain ⟨r1, r2, r3, r4, r5⟩ := quartet_ref
  obtain ⟨e1, e2, e3, e4, e5⟩ := quartet_ext
  refine ⟨?_, ?_, ?_, ?_⟩
  · simp only [PlasticSolid.trial, PlasticSolid.dilat, List.length_cons, List.length_nil, Nat.add_sub_cancel, Finset.sum_range_succ,
      Finset.sum_range_zero, zero_add, Nat.reduceAdd, r1, r2, r3, e1, e2, e3]
    simp only [quartet, List.getD_cons_zero, List.getD_cons_succ]
    norm_num
  · simp only [PlasticSolid.trial, PlasticSolid.dilat, List.length_cons, List.length_nil, Nat.add_sub_cancel, Finset.sum_range_succ,
      Finset.sum_range_zero, zero_add, r4, e4]
    simp only [quartet, List.getD_cons_zero, List.getD_cons_succ]
    norm_num
  · simp only [PlasticSolid.trial, PlasticSolid.dilat, List.length_cons, List.length_nil, Nat.add_sub_cancel, Finset.sum_range_succ,
      Finset.sum_range_zero, zero_add, r5, e5]
    simp only [quartet, List.getD_cons_zero, List.getD_cons_succ]
    norm_num
  · simp only [PlasticSolid.trial, List.length_cons, List.length_nil, Nat.add_sub_cancel, Finset.sum_range_succ,
      Finset.sum_range_zero, zero_add]
    simp only [quartet, List.getD_cons_zero, List.getD_cons_succ]
    norm_num

theorem quartet_limit : quartet.yieldLimit = 25 / (256 * Real.pi) := by
  show 25 * (1 : ℝ) ^ 2 / (8 * Real.pi * (2 : ℝ) ^ 5) = _
  congr 1
  · norm_num
  · ring

theorem quartet_yields : quartet.Yields quartetMoved.y [0, 1, 2, 3] := by
  unfold PlasticSolid.Yields
  rw [quartet_trial.1, quartet_limit, div_lt_iff₀ (by have := Real.pi_pos; positivity)]
  have := Real.pi_gt_three
  nlinarith

theorem quartet_rest {h : List Nat} (hh : h = [1, 0] ∨ h = [2, 0] ∨ h = [3, 0]) : ¬ quartet.Yields quartetMoved.y h := by
  have hpos := (yieldLimit_ok quartet_ductile).2
  obtain ⟨_, t1, t2, t3⟩ := quartet_trial
  unfold PlasticSolid.Yields
  rcases hh with rfl | rfl | rfl
  · rw [t1]; linarith
  · rw [t2]; linarith
  · rw [t3]; linarith

theorem quartet_whole (h : List Nat) : quartet.Whole h ∧ quartet.Even h := by
  refine ⟨fun t _ => ?_, fun t _ => rfl⟩
  simp only [quartet]
  split
  · exact .inr rfl
  · exact .inl rfl

theorem quartet_tangent : ∃ R A, elasticPlasticJacobian none (settings 1 1) .full quartet (fun _ _ => .ub) quartetMoved fresh
    (quartetParts.map Part.proc) (Sparse.zero R) = .ok A := by
  obtain ⟨R, A, _, hA⟩ := (C220_defined quartet quartet_ductile (settings 1 1) .full (fun _ _ => .ub) quartetMoved fresh
    quartetParts quartet_valid quartet_nodup).2 ⟨quartet_joined, quartet_sound⟩
  exact ⟨R, A, hA⟩

/-- **C223** The tangent of a point that yields and has a broken bond need not be symmetric: it is not, although the
influence function is one, bonds are intact or broken and there is no plastic extension, so that the elastic tangent is
symmetric. -/
theorem C223_broken_not_symmetric : ∃ R A, elasticPlasticJacobian none (settings 1 1) .full quartet (fun _ _ => .ub) quartetMoved fresh
    (quartetParts.map Part.proc) (Sparse.zero R) = .ok A ∧
    (∀ h ∈ allHoods quartetParts, quartet.Virgin h ∧ quartet.toSolid.Weighed [h]) ∧ A.val 6 3 ≠ A.val 3 6 := by
  obtain ⟨R, A, hA⟩ := quartet_tangent
  refine ⟨R, A, hA, ?_, ?_⟩
  · intro h hh
    refine ⟨fun t ht => ⟨(quartet_whole h).1 t ht, rfl, rfl⟩, ?_⟩
    intro g hg
    rw [List.mem_singleton] at hg
    subst hg
    rw [quartet_hoods] at hh
    simp only [List.mem_cons, List.not_mem_nil, or_false] at hh
    rcases hh with rfl | rfl | rfl | rfl <;> simp [weightedVolumeAt, Solid.hood, quartet, List.range_succ] <;> norm_num
  obtain ⟨h1, h2⟩ := plasticTangent_eq quartet_ductile (show quartetMoved.vol = quartet.v from rfl) quartet_valid quartet_nodup hA
  have sk : ∀ g ∈ allHoods quartetParts, _ := fun g hg => hood_skew quartet_ductile (allHoods_pos quartet_valid hg) (h1 g hg)
    (quartet_whole g).1 (quartet_whole g).2 (single 6) (single 3)
  rw [h2, h2, quartet_hoods]
  rw [quartet_hoods] at sk
  have s1 := (sk [1, 0] (by simp)).2.2.1 (quartet_rest (by simp))
  have s2 := (sk [2, 0] (by simp)).2.2.1 (quartet_rest (by simp))
  have s3 := (sk [3, 0] (by simp)).2.2.1 (quartet_rest (by simp))
  obtain ⟨k, hk, s0⟩ := (sk [0, 1, 2, 3] (by simp)).2.2.2 quartet_yields
  set C := quartet.local [0, 1, 2, 3] (gather 3 [0, 1, 2, 3] quartetMoved.y) with hC
  have hbonds : bondsOf (hoodNbs ([0, 1, 2, 3].length - 1)) = [⟨0, 1, 0⟩, ⟨0, 2, 1⟩, ⟨0, 3, 2⟩] := by
    rw [hood_bonds]
    rfl
  obtain ⟨c0, c1, c2, c3⟩ := quartet_comp
  obtain ⟨r1, r2, r3, _, _⟩ := quartet_ref
  have g0 : comp (gather 3 [0, 1, 2, 3] quartetMoved.y) 0 = 0 := by rw [comp_gather (by simp)]; exact c0
  have g1 : comp (gather 3 [0, 1, 2, 3] quartetMoved.y) 1 = ![2, 0, 0] := by rw [comp_gather (by simp)]; exact c1
  have g2 : comp (gather 3 [0, 1, 2, 3] quartetMoved.y) 2 = ![-1, 0, 0] := by rw [comp_gather (by simp)]; exact c2
  have g3 : comp (gather 3 [0, 1, 2, 3] quartetMoved.y) 3 = ![3, 0, 0] := by rw [comp_gather (by simp)]; exact c3
  have y1 : C.yd ⟨0, 1, 0⟩ = ![2, 0, 0] := by
    show comp (gather 3 [0, 1, 2, 3] quartetMoved.y) 1 - comp (gather 3 [0, 1, 2, 3] quartetMoved.y) 0 = _
    rw [g1, g0, sub_zero]
  have y2 : C.yd ⟨0, 2, 1⟩ = ![-1, 0, 0] := by
    show comp (gather 3 [0, 1, 2, 3] quartetMoved.y) 2 - comp (gather 3 [0, 1, 2, 3] quartetMoved.y) 0 = _
    rw [g2, g0, sub_zero]
  have y3 : C.yd ⟨0, 3, 2⟩ = ![3, 0, 0] := by
    show comp (gather 3 [0, 1, 2, 3] quartetMoved.y) 3 - comp (gather 3 [0, 1, 2, 3] quartetMoved.y) 0 = _
    rw [g3, g0, sub_zero]
  have d1 : C.dY ⟨0, 1, 0⟩ = 2 := by unfold Config.dY; rw [y1, len_x]; norm_num
  have d2 : C.dY ⟨0, 2, 1⟩ = 1 := by unfold Config.dY; rw [y2, len_x]; norm_num
  have d3 : C.dY ⟨0, 3, 2⟩ = 3 := by unfold Config.dY; rw [y3, len_x]; norm_num
  have z1 : C.zeta ⟨0, 1, 0⟩ = 1 := r1
  have z2 : C.zeta ⟨0, 2, 1⟩ = 1 := r2
  have z3 : C.zeta ⟨0, 3, 2⟩ = 2 := r3
  have o : ∀ b, C.om b = 1 := fun _ => rfl
  have vv : ∀ p, C.v p = 1 := fun _ => rfl
  have mm : C.m 0 = 6 := rfl
  have b1 : C.damage 0 = 0 := by simp [hC, PlasticSolid.local, Solid.hood, quartet]
  have b2 : C.damage 1 = 0 := by simp [hC, PlasticSolid.local, Solid.hood, quartet]
  have b3 : C.damage 2 = 1 := by simp [hC, PlasticSolid.local, Solid.hood, quartet]
  have x1 : C.ext ⟨0, 1, 0⟩ = 1 := by
    show C.dY ⟨0, 1, 0⟩ - C.zeta ⟨0, 1, 0⟩ = 1
    rw [d1, z1]; norm_num
  have x2 : C.ext ⟨0, 2, 1⟩ = 0 := by
    show C.dY ⟨0, 2, 1⟩ - C.zeta ⟨0, 2, 1⟩ = 0
    rw [d2, z2]; norm_num
  have th : theta' C (hoodNbs ([0, 1, 2, 3].length - 1)) 0 = 1 / 2 := by
    unfold theta' bondsAt
    rw [filter_hood, hbonds]
    simp only [List.map_cons, List.map_nil, List.sum_cons, List.sum_nil, kap, o, vv, mm, b1, b2, b3, z1, z2, x1, x2]
    norm_num
  have e0 : quartet.edp (List.getD [0, 1, 2, 3] 0 0) = fun _ => 0 := rfl
  have u1 : trialOf C (fun _ => 0) (1 / 2) ⟨0, 1, 0⟩ = 5 / 6 := by unfold trialOf; rw [d1, z1]; norm_num
  have u2 : trialOf C (fun _ => 0) (1 / 2) ⟨0, 2, 1⟩ = -1 / 6 := by unfold trialOf; rw [d2, z2]; norm_num
  have w6 : pulled [0, 1, 2, 3] (single 6) 0 = 0 ∧ pulled [0, 1, 2, 3] (single 6) 1 = 0 ∧ pulled [0, 1, 2, 3] (single 6) 2 = ![1, 0, 0] := by
    refine ⟨?_, ?_, ?_⟩ <;> funext c <;> fin_cases c <;> simp [pulled, single_apply]
  have w3 : pulled [0, 1, 2, 3] (single 3) 0 = 0 ∧ pulled [0, 1, 2, 3] (single 3) 1 = ![1, 0, 0] ∧ pulled [0, 1, 2, 3] (single 3) 2 = 0 := by
    refine ⟨?_, ?_, ?_⟩ <;> funext c <;> fin_cases c <;> simp [pulled, single_apply]
  have q1 : rate C (pulled [0, 1, 2, 3] (single 6)) ⟨0, 1, 0⟩ = 0 := by
    unfold rate
    simp [w6.1, w6.2.1, w6.2.2, y1, d1]
  have q2 : rate C (pulled [0, 1, 2, 3] (single 6)) ⟨0, 2, 1⟩ = -1 := by
    unfold rate
    simp [w6.1, w6.2.1, w6.2.2, y2, d2, _root_.dotProduct, Fin.sum_univ_three]
  have q3 : rate C (pulled [0, 1, 2, 3] (single 3)) ⟨0, 1, 0⟩ = 1 := by
    unfold rate
    simp [w3.1, w3.2.1, w3.2.2, y1, d1, _root_.dotProduct, Fin.sum_univ_three]
  have q4 : rate C (pulled [0, 1, 2, 3] (single 3)) ⟨0, 2, 1⟩ = 0 := by
    unfold rate
    simp [w3.1, w3.2.1, w3.2.2, y2, d2]
  have t6 : thetaRate C (hoodNbs ([0, 1, 2, 3].length - 1)) (pulled [0, 1, 2, 3] (single 6)) 0 = -1 / 2 := by
    unfold thetaRate bondsAt
    rw [filter_hood, hbonds]
    simp only [List.map_cons, List.map_nil, List.sum_cons, List.sum_nil, kap, o, vv, mm, b1, b2, b3, z1, z2, q1, q2]
    norm_num
  have t3 : thetaRate C (hoodNbs ([0, 1, 2, 3].length - 1)) (pulled [0, 1, 2, 3] (single 3)) 0 = 1 / 2 := by
    unfold thetaRate bondsAt
    rw [filter_hood, hbonds]
    simp only [List.map_cons, List.map_nil, List.sum_cons, List.sum_nil, kap, o, vv, mm, b1, b2, b3, z1, z2, q3, q4]
    norm_num
  have mean : trialMean C (fun _ => 0) (1 / 2) (hoodNbs ([0, 1, 2, 3].length - 1)) = 2 / 3 := by
    unfold trialMean
    rw [hbonds]
    simp only [List.map_cons, List.map_nil, List.sum_cons, List.sum_nil, vv, b1, b2, b3, z1, z2, u1, u2]
    norm_num
  have k6 : trialWork C (fun _ => 0) (1 / 2) (hoodNbs ([0, 1, 2, 3].length - 1)) (pulled [0, 1, 2, 3] (single 6)) = 1 / 6 := by
    unfold trialWork
    rw [hbonds]
    simp only [List.map_cons, List.map_nil, List.sum_cons, List.sum_nil, vv, b1, b2, b3, u1, u2, q1, q2]
    norm_num
  have k3 : trialWork C (fun _ => 0) (1 / 2) (hoodNbs ([0, 1, 2, 3].length - 1)) (pulled [0, 1, 2, 3] (single 3)) = 5 / 6 := by
    unfold trialWork
    rw [hbonds]
    simp only [List.map_cons, List.map_nil, List.sum_cons, List.sum_nil, vv, b1, b2, b3, u1, u2, q3, q4]
    norm_num
  rw [e0, th, t6, t3, mean, k6, k3] at s0
  have a1 : quartet.v (List.getD [0, 1, 2, 3] 0 0) = 1 := rfl
  have a2 : quartet.m (List.getD [0, 1, 2, 3] 0 0) = 6 := rfl
  have a3 : quartet.mu = 1 := rfl
  rw [a1, a2, a3] at s0
  simp only [List.map_cons, List.map_nil, List.sum_cons, List.sum_nil]
  intro e
  norm_num at s0
  linarith

/-! The hypotheses of symmetry are met by three points one of which yields. -/

example : ∃ R A, elasticPlasticJacobian none (settings 1 1) .full (trio 1) (fun _ _ => .ub) (trioMoved (1 / 10)) fresh
      (trioParts.map Part.proc) (Sparse.zero R) = .ok A ∧ (trio 1).Yields (trioMoved (1 / 10)).y [0, 1, 2] ∧
    ∀ r c, A.val r c = A.val c r := by
  obtain ⟨R, A, _, hA⟩ := (C220_defined (trio 1) (trio_ductile one_ne_zero) (settings 1 1) .full (fun _ _ => .ub) (trioMoved (1 / 10)) fresh
    trioParts trio_valid trio_nodup).2 ⟨trio_joined, trio_sound (by norm_num)⟩
  refine ⟨R, A, hA, trio_yields, C223_symmetric_partial (trio 1) (trio_ductile one_ne_zero) _ _ _ _ rfl _ _ trio_valid trio_nodup ?_ R A hA⟩
  intro h hh
  refine ⟨fun t _ => .inl rfl, fun t _ => rfl, fun _ => ⟨fun t _ => rfl, ?_, by simp [trio]⟩⟩
  intro g hg
  rw [List.mem_singleton] at hg
  subst hg
  rw [trio_hoods] at hh
  simp only [List.mem_cons, List.not_mem_nil, or_false] at hh
  rcases hh with rfl | rfl | rfl <;> simp [weightedVolumeAt, Solid.hood, trio, List.range_succ] <;> norm_num

end Verif.Fad
