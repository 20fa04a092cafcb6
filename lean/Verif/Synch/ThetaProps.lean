import Verif.Synch.Lemmas
import Mathlib.Tactic.Ring
import Mathlib.Algebra.BigOperators.Intervals
import Mathlib.Algebra.BigOperators.Ring.Finset

/-!
# Property C207: the dilatation of "Linear LPS Partial Volume" beside other materials
-/

namespace Verif.Synch

open Verif Verif.Assembly

variable {V : Type}

/-- All the values for an id in the dilatation of the blocks. -/
def thetas (bs : List (ThetaBlock V)) (g : Nat) : List V := contributions (bs.map ThetaBlock.data) g

/-- The values for an id in blocks with other materials. -/
def foreign (bs : List (ThetaBlock V)) (g : Nat) : List V := thetas (bs.filter (! ·.lps)) g

/-- How often an id is an owned point of an LPS block. -/
def ownedByLps (bs : List (ThetaBlock V)) (g : Nat) : Nat :=
  ((bs.filter (·.lps)).map fun b => ((b.data.data.getD []).zipIdx.map fun x =>
    (x.1.filter fun e => decide (e.1 = g) && b.own x.2 g).length).sum).sum

/-- Every copy of the dilatation of an id holds `v`. -/
def EveryTheta (bs : List (ThetaBlock V)) (g : Nat) (v : V) : Prop :=
  ∀ b ∈ bs, ∀ q w, Copy b.data q g w → w = v

theorem thetas_cons (b : ThetaBlock V) (bs : List (ThetaBlock V)) (g : Nat) :
    thetas (b :: bs) g = thetas [b] g ++ thetas bs g := by
  simp [thetas, contributions]

theorem synchTheta_data [Zero V] [Add V] (scratch : Assembly.Dist V) (bs : List (ThetaBlock V)) :
    (synchTheta scratch bs).map ThetaBlock.data = synchronize scratch (bs.map ThetaBlock.data) := by
  simp [synchTheta, synchronize, Function.comp_def]

theorem precompute_pick [Zero V] (theta : Nat → V) (b : ThetaBlock V) : (b.precompute theta).data.pick = b.data.pick := by
  unfold ThetaBlock.precompute ThetaBlock.write
  split <;> rfl

theorem computeForce_pick (theta : Nat → V) (b : ThetaBlock V) : (b.computeForce theta).data.pick = b.data.pick := by
  unfold ThetaBlock.computeForce ThetaBlock.write
  split <;> rfl

/-- The values of one LPS block after `precompute`. -/
theorem sum_write [AddCommMonoid V] (b : ThetaBlock V) (theta : Nat → V) (g : Nat) :
    (thetas [b.write theta (fun _ => 0)] g).sum =
      (((b.data.data.getD []).zipIdx.map fun x =>
        (x.1.filter fun e => decide (e.1 = g) && b.own x.2 g).length).sum) • theta g := by
  unfold thetas contributions ThetaBlock.write
  simp only [List.map_cons, List.map_nil, List.flatMap_cons, List.flatMap_nil, List.append_nil]
  cases b.data.data with
  | none => simp
  | some d =>
    simp only [Option.map_some, Option.getD_some]
    have key : ∀ n, ((d.mapIdx fun q part => part.map fun e =>
        (e.1, if b.own (n + q) e.1 then theta e.1 else 0)).flatMap
          fun part => (part.filter fun e => e.1 = g).map Prod.snd).sum =
        (((d.zipIdx n).map fun x => (x.1.filter fun e => decide (e.1 = g) && b.own x.2 g).length).sum) • theta g := by
      intro n
      induction d generalizing n with
      | nil => simp
      | cons part d ih =>
        have h1 := ih (n + 1)
        rw [List.mapIdx_cons, List.flatMap_cons, List.sum_append, List.zipIdx_cons, List.map_cons, List.sum_cons,
          add_nsmul, ← h1]
        congr 1
        · simp only [Nat.add_zero]
          clear h1 ih
          induction part with
          | nil => simp
          | cons e part ihp =>
            rw [List.map_cons]
            by_cases hk : e.1 = g
            · rw [List.filter_cons_of_pos (by simpa using hk), List.map_cons, List.sum_cons, ihp]
              by_cases ho : b.own n g = true
              · rw [List.filter_cons_of_pos (by simp [hk, ho]), List.length_cons, add_comm, add_nsmul, one_nsmul]
                simp [hk, ho]
              · rw [List.filter_cons_of_neg (by simp [ho])]
                simp [hk, ho]
            · rw [List.filter_cons_of_neg (by simpa using hk), List.filter_cons_of_neg (by simp [hk]), ihp]
        · congr 3
          funext q part
          rw [show n + (q + 1) = n + 1 + q by omega]
    have := key 0
    simpa using this

/-- The sum of the values for an id after `precompute`. -/
theorem sum_precompute [AddCommMonoid V] (theta : Nat → V) (bs : List (ThetaBlock V)) (g : Nat) :
    (thetas (bs.map (·.precompute theta)) g).sum = ownedByLps bs g • theta g + (foreign bs g).sum := by
  induction bs with
  | nil => simp [thetas, contributions, ownedByLps, foreign]
  | cons b bs ih =>
    rw [List.map_cons, thetas_cons, List.sum_append, ih]
    cases hl : b.lps with
    | true =>
      have h1 : b.precompute theta = b.write theta (fun _ => 0) := by simp [ThetaBlock.precompute, hl]
      have h2 : foreign (b :: bs) g = foreign bs g := by simp [foreign, hl]
      have h3 : ownedByLps (b :: bs) g = ((b.data.data.getD []).zipIdx.map fun x =>
          (x.1.filter fun e => decide (e.1 = g) && b.own x.2 g).length).sum + ownedByLps bs g := by
        simp [ownedByLps, hl]
      rw [h1, sum_write, h2, h3, add_nsmul, add_assoc]
    | false =>
      have h1 : b.precompute theta = b := by simp [ThetaBlock.precompute, hl]
      have h2 : foreign (b :: bs) g = thetas [b] g ++ foreign bs g := by
        unfold foreign
        rw [List.filter_cons_of_pos (by simp [hl]), thetas_cons]
      have h3 : ownedByLps (b :: bs) g = ownedByLps bs g := by simp [ownedByLps, hl]
      rw [h1, h2, h3, List.sum_append]
      abel

/-- C207 (`_partial`: the second term should not be there): the dilatation with which the forces are computed is, in every
copy of a point, the one computed for it where it is an owned point of an LPS block, plus everything blocks with other
materials still hold for the point from earlier evaluations. -/
theorem C207_seen_partial [AddCommMonoid V] (scratch : Assembly.Dist V) (theta : Nat → V) (bs : List (ThetaBlock V))
    (hv : ∀ b ∈ bs, ValidPick scratch b.data) (p g : Nat) (ho : Owns scratch p g) :
    EveryTheta (thetaSeen scratch theta bs) g (ownedByLps bs g • theta g + (foreign bs g).sum) := by
  have hv' : ∀ f ∈ (bs.map (·.precompute theta)).map ThetaBlock.data, ValidPick scratch f := by
    intro f hf
    obtain ⟨b', hb', rfl⟩ := List.mem_map.1 hf
    obtain ⟨b, hb, rfl⟩ := List.mem_map.1 hb'
    intro q k p' ho'
    rw [precompute_pick]
    exact hv b hb q k p' ho'
  intro b hb q w hw
  have hmem : b.data ∈ synchronize scratch ((bs.map (·.precompute theta)).map ThetaBlock.data) := by
    rw [← synchTheta_data]
    exact List.mem_map.2 ⟨b, hb, rfl⟩
  obtain ⟨d, part, hd, hp, hm⟩ := hw
  have h := (C13_every_copy_partial scratch _ hv').2 _ hmem d hd part (List.mem_of_getElem? hp) _ hm ⟨p, ho⟩
  rw [← sum_precompute]
  exact h

/-- C207: if all blocks have the LPS material, the forces are computed with the dilatation of the point. -/
theorem C207_only_lps [AddCommMonoid V] (scratch : Assembly.Dist V) (theta : Nat → V) (bs : List (ThetaBlock V))
    (hv : ∀ b ∈ bs, ValidPick scratch b.data) (hl : ∀ b ∈ bs, b.lps = true) (p g : Nat) (ho : Owns scratch p g)
    (h1 : ownedByLps bs g = 1) : EveryTheta (thetaSeen scratch theta bs) g (theta g) := by
  have h := C207_seen_partial scratch theta bs hv p g ho
  have hf : foreign bs g = [] := by
    unfold foreign
    have : bs.filter (! ·.lps) = [] := by
      rw [List.filter_eq_nil_iff]
      intro b hb
      simp [hl b hb]
    rw [this]
    rfl
  rw [h1, hf, one_nsmul, List.sum_nil, add_zero] at h
  exact h

/-- What stays the same in an evaluation. -/
theorem evaluate_same [AddCommMonoid V] (scratch : Assembly.Dist V) (theta : Nat → V) (bs : List (ThetaBlock V)) :
    (evaluateTheta scratch theta bs).map (fun b => (b.data.data.map ids, b.data.pick, b.own, b.lps)) =
      bs.map (fun b => (b.data.data.map ids, b.data.pick, b.own, b.lps)) := by
  have hw : ∀ (b : ThetaBlock V) value rest, (b.write value rest).data.data.map ids = b.data.data.map ids := by
    intro b value rest
    unfold ThetaBlock.write ids
    cases b.data.data with
    | none => rfl
    | some d =>
      simp only [Option.map_some]
      congr 1
      apply List.ext_getElem
      · simp
      · intro i h1 h2
        simp [Function.comp_def]
  have hwo : ∀ (b : ThetaBlock V) value rest, (b.write value rest).own = b.own ∧ (b.write value rest).lps = b.lps ∧
      (b.write value rest).data.pick = b.data.pick := fun _ _ _ => ⟨rfl, rfl, rfl⟩
  unfold evaluateTheta thetaSeen synchTheta
  rw [List.map_map, List.map_map, List.map_map]
  apply List.map_congr_left
  intro b _
  simp only [Function.comp_apply, ThetaBlock.precompute, ThetaBlock.computeForce]
  cases hl : b.lps with
  | true => simp [hl, hwo, ids_importInsert, hw, pick_importInsert]
  | false => simp [hl, hwo, ids_importInsert, hw, pick_importInsert]

theorem ownedByLps_congr (bs bs' : List (ThetaBlock V)) (g : Nat)
    (h : bs.map (fun b => (b.data.data.map ids, b.data.pick, b.own, b.lps)) =
      bs'.map (fun b => (b.data.data.map ids, b.data.pick, b.own, b.lps))) :
    ownedByLps bs g = ownedByLps bs' g := by
  have e : ∀ bs : List (ThetaBlock V), ownedByLps bs g =
      (((bs.map (fun b => (b.data.data.map ids, b.data.pick, b.own, b.lps))).filter (·.2.2.2)).map
        fun t => ((t.1.getD []).zipIdx.map fun x =>
          (x.1.filter fun k => decide (k = g) && t.2.2.1 x.2 g).length).sum).sum := by
    intro bs
    unfold ownedByLps
    rw [List.filter_map, List.map_map]
    congr 1
    apply List.map_congr_left
    intro b _
    simp only [Function.comp_apply]
    congr 1
    cases b.data.data with
    | none => rfl
    | some d =>
      simp only [Option.getD_some, Option.map_some, ids]
      rw [List.zipIdx_map, List.map_map]
      apply List.map_congr_left
      intro x _
      simp only [Function.comp_apply, Prod.map_fst, Prod.map_snd, id_eq, List.filter_map, List.length_map]
      rfl
  rw [e, e, h]

theorem foreign_length_congr (bs bs' : List (ThetaBlock V)) (g : Nat)
    (h : bs.map (fun b => (b.data.data.map ids, b.data.pick, b.own, b.lps)) =
      bs'.map (fun b => (b.data.data.map ids, b.data.pick, b.own, b.lps))) :
    (foreign bs g).length = (foreign bs' g).length := by
  have e : ∀ bs : List (ThetaBlock V), (foreign bs g).length =
      (((bs.map (fun b => (b.data.data.map ids, b.data.pick, b.own, b.lps))).filter (! ·.2.2.2)).map
        fun t => ((t.1.getD []).map fun l => (l.filter (· = g)).length).sum).sum := by
    intro bs
    unfold foreign thetas
    rw [length_contributions, List.filter_map, List.map_map, List.map_map, List.map_map]
    rfl
  rw [e, e, h]

theorem valid_congr (scratch : Assembly.Dist V) (bs bs' : List (ThetaBlock V))
    (h : bs.map (fun b => (b.data.data.map ids, b.data.pick, b.own, b.lps)) =
      bs'.map (fun b => (b.data.data.map ids, b.data.pick, b.own, b.lps)))
    (hv : ∀ b ∈ bs', ValidPick scratch b.data) : ∀ b ∈ bs, ValidPick scratch b.data := by
  intro b hb q k p ho
  obtain ⟨b', hb', he⟩ := mem_of_map_eq _ _ _ _ h b hb
  have hp : b'.data.pick = b.data.pick := congrArg (fun t => t.2.1) he
  rw [← hp]
  exact hv b' hb' q k p ho

/-- What blocks with other materials hold for a point they do not own after an evaluation. -/
theorem foreign_evaluate [AddCommMonoid V] (scratch : Assembly.Dist V) (theta : Nat → V) (bs : List (ThetaBlock V))
    (hv : ∀ b ∈ bs, ValidPick scratch b.data) (p g : Nat) (ho : Owns scratch p g)
    (hf : ∀ b ∈ bs, b.lps = false → ∀ q, b.own q g = false) :
    foreign (evaluateTheta scratch theta bs) g =
      List.replicate (foreign bs g).length (ownedByLps bs g • theta g + (foreign bs g).sum) := by
  rw [List.eq_replicate_iff]
  refine ⟨foreign_length_congr _ _ g (evaluate_same scratch theta bs), ?_⟩
  intro v hv'
  unfold foreign thetas at hv'
  obtain ⟨f, hfm, q, hc⟩ := (mem_contributions _ _ _).1 hv'
  obtain ⟨b, hb, rfl⟩ := List.mem_map.1 hfm
  obtain ⟨hb, hl⟩ := List.mem_filter.1 hb
  unfold evaluateTheta at hb
  obtain ⟨b1, hb1, rfl⟩ := List.mem_map.1 hb
  have hl1 : b1.lps = false := by
    cases h : b1.lps with
    | false => rfl
    | true =>
      have : (b1.computeForce theta).lps = true := by simp [ThetaBlock.computeForce, h]
      rw [this] at hl
      cases hl
  have hown : b1.own q g = false := by
    unfold thetaSeen synchTheta at hb1
    obtain ⟨b2, hb2, rfl⟩ := List.mem_map.1 hb1
    obtain ⟨b3, hb3, rfl⟩ := List.mem_map.1 hb2
    have hl3 : b3.lps = false := by
      cases h : b3.lps with
      | false => rfl
      | true => simp [ThetaBlock.precompute, ThetaBlock.write, h] at hl1
    simp only [ThetaBlock.precompute, hl3, Bool.false_eq_true, if_false]
    exact hf b3 hb3 hl3 q
  refine C207_seen_partial scratch theta bs hv p g ho b1 hb1 q v ?_
  obtain ⟨d, part, hd, hp, hm⟩ := hc
  simp only [ThetaBlock.computeForce, hl1, Bool.false_eq_true, if_false, ThetaBlock.write,
    Option.map_eq_some_iff] at hd
  obtain ⟨d0, hd0, rfl⟩ := hd
  rw [List.getElem?_mapIdx, Option.map_eq_some_iff] at hp
  obtain ⟨p0, hp0, rfl⟩ := hp
  obtain ⟨e, he, heq⟩ := List.mem_map.1 hm
  have hk : e.1 = g := congrArg Prod.fst heq
  have hs : (if b1.own q e.1 = true then theta e.1 else e.2) = v := congrArg Prod.snd heq
  rw [hk, hown] at hs
  simp only [Bool.false_eq_true, if_false] at hs
  refine ⟨d0, p0, hd0, hp0, ?_⟩
  rw [← hk, ← hs]
  exact he

/-- C207: an evaluation with the same data container gives a point of an LPS block, in addition to its dilatation, that
of the evaluation before times the number of its ghosts in blocks with other materials. -/
theorem C207_recurrence [AddCommMonoid V] (scratch : Assembly.Dist V) (before theta : Nat → V)
    (bs : List (ThetaBlock V)) (hv : ∀ b ∈ bs, ValidPick scratch b.data) (p g : Nat) (ho : Owns scratch p g)
    (hf : ∀ b ∈ bs, b.lps = false → ∀ q, b.own q g = false) (h1 : ownedByLps bs g = 1) (s : V)
    (hs : s = before g + (foreign bs g).sum) :
    EveryTheta (thetaSeen scratch before bs) g s ∧
      EveryTheta (thetaSeen scratch theta (evaluateTheta scratch before bs)) g
        (theta g + (foreign bs g).length • s) := by
  have hsame := evaluate_same scratch before bs
  have h0 := C207_seen_partial scratch before bs hv p g ho
  have h2 := C207_seen_partial scratch theta (evaluateTheta scratch before bs) (valid_congr scratch _ _ hsame hv) p g ho
  rw [foreign_evaluate scratch before bs hv p g ho hf, ownedByLps_congr _ _ g hsame, h1, one_nsmul, one_nsmul,
    List.sum_replicate, ← hs] at h2
  rw [h1, one_nsmul, ← hs] at h0
  exact ⟨h0, h2⟩

/-- C207 is false as intended: with a constant dilatation, and nothing in the ghosts at first, the dilatation used in
evaluation `n + 1` is the right one times 1 + m + ... + mⁿ, where `m` is the number of ghosts of the point in blocks with
other materials. -/
theorem C207_grows [AddCommMonoid V] (scratch : Assembly.Dist V) (theta : Nat → V)
    (bs : List (ThetaBlock V)) (hv : ∀ b ∈ bs, ValidPick scratch b.data) (p g : Nat) (ho : Owns scratch p g)
    (hf : ∀ b ∈ bs, b.lps = false → ∀ q, b.own q g = false) (h1 : ownedByLps bs g = 1)
    (h0 : (foreign bs g).sum = 0) (n : Nat) :
    EveryTheta (thetaSeen scratch theta ((evaluateTheta scratch theta)^[n] bs)) g
      ((∑ i ∈ Finset.range (n + 1), (foreign bs g).length ^ i) • theta g) := by
  have key : ∀ n, (((evaluateTheta scratch theta)^[n] bs).map
        (fun b => (b.data.data.map ids, b.data.pick, b.own, b.lps)) =
        bs.map (fun b => (b.data.data.map ids, b.data.pick, b.own, b.lps))) ∧
      theta g + (foreign ((evaluateTheta scratch theta)^[n] bs) g).sum =
        (∑ i ∈ Finset.range (n + 1), (foreign bs g).length ^ i) • theta g := by
    intro n
    induction n with
    | zero => simp [h0, one_nsmul]
    | succ n ih =>
      obtain ⟨hs, hsum⟩ := ih
      rw [Function.iterate_succ_apply']
      refine ⟨(evaluate_same _ _ _).trans hs, ?_⟩
      have hf' : ∀ b ∈ (evaluateTheta scratch theta)^[n] bs, b.lps = false → ∀ q, b.own q g = false := by
        intro b hb hl q
        obtain ⟨b', hb', he⟩ := mem_of_map_eq _ _ _ _ hs b hb
        have e1 : b'.own = b.own := congrArg (fun t => t.2.2.1) he
        have e2 : b'.lps = b.lps := congrArg (fun t => t.2.2.2) he
        rw [← e1]
        exact hf b' hb' (e2.trans hl) q
      rw [foreign_evaluate scratch theta _ (valid_congr scratch _ _ hs hv) p g ho hf', List.sum_replicate,
        ownedByLps_congr _ _ g hs, h1, one_nsmul, hsum, foreign_length_congr _ _ g hs, ← mul_nsmul,
        Finset.sum_range_succ' _ (n + 1), add_nsmul, add_comm]
      congr 1
      · rw [Finset.sum_mul]
        simp only [pow_succ]
      · simp [one_nsmul]
  have h := C207_seen_partial scratch theta _ (valid_congr scratch _ _ (key n).1 hv) p g ho
  rw [ownedByLps_congr _ _ g (key n).1, h1, one_nsmul, (key n).2] at h
  exact h

/-- Point 1 belongs to an LPS block and has a ghost in an elastic block, which owns point 2. -/
def demoTheta : List (ThetaBlock Int) :=
  [⟨⟨some [[(1, 0), (2, 0)]], fun _ _ => 0⟩, fun _ g => g == 1, true⟩,
   ⟨⟨some [[(2, 0), (1, 0)]], fun _ _ => 0⟩, fun _ g => g == 2, false⟩]

/-- The global map of the example. -/
def demoThetaMap : Assembly.Dist Int := [[(1, 0), (2, 0)]]

example : (∀ b ∈ demoTheta, ValidPick demoThetaMap b.data) ∧ Owns demoThetaMap 0 1 ∧ ownedByLps demoTheta 1 = 1 ∧
    foreign demoTheta 1 = [0] ∧ ∀ b ∈ demoTheta, b.lps = false → ∀ q, b.own q 1 = false := by
  refine ⟨?_, ⟨_, rfl, by decide⟩, by decide, by decide, ?_⟩
  · intro b hb q g p ho
    obtain ⟨part, hp, -⟩ := ho
    have hp0 : p = 0 := by
      match p, hp with
      | 0, _ => rfl
      | n + 1, hp => simp [demoThetaMap] at hp
    subst hp0
    simp only [demoTheta, List.mem_cons, List.not_mem_nil, or_false] at hb
    rcases hb with rfl | rfl <;> rfl
  · intro b hb hl q
    simp only [demoTheta, List.mem_cons, List.not_mem_nil, or_false] at hb
    rcases hb with rfl | rfl
    · cases hl
    · rfl

/-- With a dilatation of 5 at point 1 in all evaluations, the LPS block computes its forces with 5, 10, 15 and so on. -/
theorem C207_witness : (List.range 4).map (fun n =>
      (thetaSeen demoThetaMap (fun g => if g = 1 then 5 else 0)
        ((evaluateTheta demoThetaMap fun g => if g = 1 then 5 else 0)^[n] demoTheta)).head?.bind fun b =>
          b.data.data.map fun d => Assembly.lookup d 0 1) = [some (some 5), some (some 10), some (some 15), some (some 20)] := by
  decide +kernel

end Verif.Synch
