import Verif.Synch.Lemmas
import Mathlib.Tactic.Linarith
import Mathlib.Tactic.Positivity
import Mathlib.Tactic.Ring

/-!
# Properties C205 and C206: set-up of the synchronisation and fields that start with a constant
-/

namespace Verif.Synch

open Verif Verif.Assembly

variable {V : Type}

/-! ### C205 -/

theorem foldl_ids (ws : List Wants) (l : List Nat) (hl : l.Pairwise (· < ·)) :
    (ws.foldl (fun l w => addIds l w.ids) l).Pairwise (· < ·) ∧
      ∀ id, id ∈ ws.foldl (fun l w => addIds l w.ids) l ↔ id ∈ l ∨ ∃ w ∈ ws, id ∈ w.ids := by
  induction ws generalizing l with
  | nil => exact ⟨hl, fun id => by simp⟩
  | cons w ws ih =>
    obtain ⟨h1, h2⟩ := ih (addIds l w.ids) (sorted_sortUnique _)
    refine ⟨h1, fun id => ?_⟩
    rw [List.foldl_cons, h2 id]
    simp only [addIds, mem_sortUnique, List.mem_append, List.mem_cons, exists_eq_or_imp]
    exact or_assoc

/-- C205: the fields that are synchronised are those any material or damage model asks for, each of them once. -/
theorem C205_collected (blocks : List Wants) :
    (collectIds blocks).Pairwise (· < ·) ∧ (collectIds blocks).Nodup ∧
      ∀ id, id ∈ collectIds blocks ↔ ∃ w ∈ blocks, id ∈ w.material ∨ ∃ d, w.damage = some d ∧ id ∈ d := by
  obtain ⟨h1, h2⟩ := foldl_ids blocks [] List.Pairwise.nil
  refine ⟨h1, h1.imp (fun h => Nat.ne_of_lt h), fun id => ?_⟩
  unfold collectIds
  rw [h2 id]
  simp only [List.not_mem_nil, false_or]
  constructor
  · rintro ⟨w, hw, hid⟩
    refine ⟨w, hw, ?_⟩
    unfold Wants.ids at hid
    rcases List.mem_append.1 hid with h | h
    · exact Or.inl h
    · cases hd : w.damage with
      | none => rw [hd] at h; cases h
      | some d => rw [hd] at h; exact Or.inr ⟨d, rfl, h⟩
  · rintro ⟨w, hw, h | ⟨d, hd, h⟩⟩
    · exact ⟨w, hw, List.mem_append_left _ h⟩
    · exact ⟨w, hw, List.mem_append_right _ (by rw [hd]; exact h)⟩

example : collectIds [⟨[5, 2], none⟩, ⟨[2], some [9, 5]⟩] = [2, 5, 9] := by decide

/-- What the check asks of a field. -/
def Fits (fm : Field.FieldManager) (blocks : List (Nat → Field.Step → Bool)) (id : Nat) : Prop :=
  ∃ s, fm.fieldSpecs[id]? = some s ∧ (s.relation = .node ∨ s.relation = .element) ∧
    (s.length = .scalar ∨ s.length = .vector) ∧
    ∀ has ∈ blocks, has id (if s.temporal = .twoStep then .np1 else .none) = true

theorem checkField_iff (fm : Field.FieldManager) (blocks : List (Nat → Field.Step → Bool)) (id : Nat) :
    (Fits fm blocks id → checkField fm blocks id = .ok ()) ∧
      (¬ Fits fm blocks id → checkField fm blocks id = .fail .terminate) := by
  unfold checkField Field.getFieldSpec Fits
  by_cases hid : id ≥ fm.fieldSpecs.length
  · rw [dif_pos hid, List.getElem?_eq_none hid]
    refine ⟨?_, fun _ => rfl⟩
    rintro ⟨s, h, -⟩
    cases h
  · rw [dif_neg hid, List.getElem?_eq_getElem (by omega)]
    simp only [Outcome.ok_bind]
    generalize fm.fieldSpecs[id] = s
    by_cases h1 : s.relation = .node ∨ s.relation = .element
    · rw [if_neg (by rintro ⟨ha, hb⟩; rcases h1 with h | h; exacts [ha h, hb h])]
      by_cases h2 : s.length = .scalar ∨ s.length = .vector
      · rw [if_neg (by rintro ⟨ha, hb⟩; rcases h2 with h | h; exacts [ha h, hb h])]
        by_cases h3 : ∀ has ∈ blocks, has id (if s.temporal = .twoStep then .np1 else .none) = true
        · have hany : (blocks.any fun has => !has id (stepOf s.temporal)) = false := by
            rw [List.any_eq_false]
            intro has hm
            have := h3 has hm
            unfold stepOf
            rw [this]
            simp
          rw [hany]
          exact ⟨fun _ => rfl, fun h => absurd ⟨s, rfl, h1, h2, h3⟩ h⟩
        · have hany : (blocks.any fun has => !has id (stepOf s.temporal)) = true := by
            rw [List.any_eq_true]
            push Not at h3
            obtain ⟨has, hm, hf⟩ := h3
            refine ⟨has, hm, ?_⟩
            unfold stepOf
            simpa using hf
          rw [hany]
          refine ⟨?_, fun _ => rfl⟩
          rintro ⟨s', hs', -, -, h4⟩
          cases hs'
          exact absurd h4 h3
      · push Not at h2
        rw [if_pos h2]
        refine ⟨?_, fun _ => rfl⟩
        rintro ⟨s', hs', -, h4, -⟩
        cases hs'
        rcases h4 with h | h
        exacts [absurd h h2.1, absurd h h2.2]
    · push Not at h1
      rw [if_pos h1]
      refine ⟨?_, fun _ => rfl⟩
      rintro ⟨s', hs', h4, -⟩
      cases hs'
      rcases h4 with h | h
      exacts [absurd h h1.1, absurd h h1.2]

theorem checkFields_iff (fm : Field.FieldManager) (blocks : List (Nat → Field.Step → Bool)) (l : List Nat) :
    ((∀ id ∈ l, Fits fm blocks id) → checkFields fm blocks l = .ok ()) ∧
      (¬ (∀ id ∈ l, Fits fm blocks id) → checkFields fm blocks l = .fail .terminate) := by
  induction l with
  | nil => exact ⟨fun _ => rfl, fun h => absurd (fun id hid => by cases hid) h⟩
  | cons id l ih =>
    rw [checkFields]
    by_cases h : Fits fm blocks id
    · rw [(checkField_iff fm blocks id).1 h]
      simp only [Outcome.ok_bind]
      refine ⟨fun h1 => ih.1 fun i hi => h1 i (List.mem_cons_of_mem _ hi), fun h1 => ih.2 fun h2 => h1 ?_⟩
      intro i hi
      rcases List.mem_cons.1 hi with rfl | hi
      exacts [h, h2 i hi]
    · rw [(checkField_iff fm blocks id).2 h]
      exact ⟨fun h1 => absurd (h1 id List.mem_cons_self) h, fun _ => rfl⟩

/-- C205: the check passes exactly if every field that is to be synchronised is registered, is a scalar or vector of
nodes or elements, and is stored by every block; otherwise the program terminates. -/
theorem C205_check (fm : Field.FieldManager) (blocks : List (Nat → Field.Step → Bool)) (first later : List Nat) :
    (checkFieldValidity fm blocks first later = .ok () ↔ ∀ id ∈ first ++ later, Fits fm blocks id) ∧
      (checkFieldValidity fm blocks first later = .ok () ∨
        checkFieldValidity fm blocks first later = .fail .terminate) := by
  have h := checkFields_iff fm blocks (first ++ later)
  unfold checkFieldValidity
  by_cases hf : ∀ id ∈ first ++ later, Fits fm blocks id
  · exact ⟨⟨fun _ => hf, fun _ => h.1 hf⟩, Or.inl (h.1 hf)⟩
  · refine ⟨⟨fun hok => ?_, fun h' => absurd h' hf⟩, Or.inr (h.2 hf)⟩
    rw [h.2 hf] at hok
    cases hok

/-- C205: once the check has passed, no synchronisation fails: it works through the fields in order, at step N+1 for
fields of two steps, with the vector of the right length. -/
theorem C205_never_fails (fm : Field.FieldManager) (blocks : List (Nat → Field.Step → Bool)) (first later : List Nat)
    (h : checkFieldValidity fm blocks first later = .ok ()) (l : List Nat) (hl : l = first ∨ l = later) :
    ∃ out, synchronizeFields fm l = .ok out ∧ out.map Prod.fst = l ∧
      ∀ e ∈ out, ∃ s, fm.fieldSpecs[e.1]? = some s ∧
        e.2.1 = (if s.temporal = .twoStep then Field.Step.np1 else .none) ∧
        (e.2.2 = true ∧ s.length = .scalar ∨ e.2.2 = false ∧ s.length = .vector) ∧
        ∀ has ∈ blocks, has e.1 e.2.1 = true := by
  have hfit := (C205_check fm blocks first later).1.1 h
  have hall : ∀ id ∈ l, Fits fm blocks id := by
    intro id hid
    rcases hl with rfl | rfl
    · exact hfit id (List.mem_append_left _ hid)
    · exact hfit id (List.mem_append_right _ hid)
  clear hl h hfit
  induction l with
  | nil => exact ⟨[], rfl, rfl, fun e he => by cases he⟩
  | cons id l ih =>
    obtain ⟨out, ho, hm, hp⟩ := ih fun i hi => hall i (List.mem_cons_of_mem _ hi)
    obtain ⟨s, hs, -, hlen, hhas⟩ := hall id List.mem_cons_self
    have hspec : Field.getFieldSpec fm id = .ok s := by
      unfold Field.getFieldSpec
      have hlt : id < fm.fieldSpecs.length := by
        by_contra hge
        rw [List.getElem?_eq_none (by omega)] at hs
        cases hs
      rw [dif_neg (by omega)]
      rw [List.getElem?_eq_getElem hlt] at hs
      rw [Option.some.inj hs]
    have hcons : ∀ k, (k = true ∧ s.length = .scalar ∨ k = false ∧ s.length = .vector) →
        ∀ e ∈ (id, stepOf s.temporal, k) :: out, ∃ s, fm.fieldSpecs[e.1]? = some s ∧
          e.2.1 = (if s.temporal = .twoStep then Field.Step.np1 else .none) ∧
          (e.2.2 = true ∧ s.length = .scalar ∨ e.2.2 = false ∧ s.length = .vector) ∧
          ∀ has ∈ blocks, has e.1 e.2.1 = true := by
      intro k hk e he
      rcases List.mem_cons.1 he with rfl | he
      · exact ⟨s, hs, rfl, hk, hhas⟩
      · exact hp e he
    rw [synchronizeFields, hspec]
    simp only [Outcome.ok_bind]
    rcases hlen with hlen | hlen
    · rw [if_pos hlen, ho]
      exact ⟨_, rfl, by rw [List.map_cons, hm], hcons true (Or.inl ⟨rfl, hlen⟩)⟩
    · rw [if_neg (by rw [hlen]; decide), if_pos hlen, ho]
      exact ⟨_, rfl, by rw [List.map_cons, hm], hcons false (Or.inr ⟨rfl, hlen⟩)⟩

/-- C205 is false as intended, "any materials can be combined": a field one block asks for and another does not store
stops the program. -/
theorem C205_missing_field (fm : Field.FieldManager) (blocks : List (Nat → Field.Step → Bool)) (first later : List Wants)
    (w : Wants) (hw : w ∈ later) (id : Nat) (hid : id ∈ w.material) (has : Nat → Field.Step → Bool)
    (hb : has ∈ blocks) (hno : ∀ step, has id step = false) :
    checkFieldValidity fm blocks (collectIds first) (collectIds later) = .fail .terminate := by
  rcases (C205_check fm blocks (collectIds first) (collectIds later)).2 with h | h
  · have hfit := (C205_check fm blocks _ _).1.1 h id (List.mem_append_right _
      (((C205_collected later).2.2 id).2 ⟨w, hw, Or.inl hid⟩))
    obtain ⟨s, -, -, -, h4⟩ := hfit
    have := h4 has hb
    rw [hno] at this
    cases this
  · exact h

/-- A block of an elastic material, by the labels of its fields. -/
def elasticHas (fm : Field.FieldManager) : Nat → Field.Step → Bool := fun id _ =>
  (fm.fieldSpecs[id]?.map fun s => decide (s.label ∈ elasticFields)).getD false

/-- C205: an elastic block cannot stand beside one with a bond-associated correspondence material, nor beside one with a
hypoelastic correspondence material. -/
theorem C205_elastic_beside (fm : Field.FieldManager) (others : List (Nat → Field.Step → Bool))
    (first later : List Wants) (w : Wants) (hw : w ∈ later) (id : Nat) (hid : id ∈ w.material) (s : Field.FieldSpec)
    (hs : fm.fieldSpecs[id]? = some s)
    (hlabel : s.label ∈ bondAssociatedSynch ∨ s.label ∈ hypoelasticSynch.2 ∧ s.label ≠ "Weighted_Volume") :
    checkFieldValidity fm (elasticHas fm :: others) (collectIds first) (collectIds later) = .fail .terminate := by
  refine C205_missing_field fm _ first later w hw id hid (elasticHas fm) List.mem_cons_self fun step => ?_
  unfold elasticHas
  rw [hs]
  simp only [Option.map_some, Option.getD_some, decide_eq_false_iff_not]
  intro hmem
  have hdis : ∀ l ∈ elasticFields, ¬ (l ∈ bondAssociatedSynch ∨ l ∈ hypoelasticSynch.2 ∧ l ≠ "Weighted_Volume") := by
    decide
  exact hdis _ hmem hlabel

/-- The fields of the example. -/
def demoFields : Field.FieldManager where
  fieldSpecs := [⟨.element, .scalar, .twoStep, "Dilatation", 0⟩, ⟨.element, .scalar, .constant, "Weighted_Volume", 1⟩,
    ⟨.element, .vector, .constant, "Deformation_Gradient_X", 2⟩]
  specIsGlobal := [false, false, false]
  labelToIdMap := []

example : checkFieldValidity demoFields [elasticHas demoFields, fun _ _ => true] (collectIds [⟨[1], none⟩])
      (collectIds [⟨[0], none⟩]) = .ok () ∧
    checkFieldValidity demoFields [elasticHas demoFields, fun _ _ => true] (collectIds [⟨[1], none⟩])
      (collectIds [⟨[2], none⟩]) = .fail .terminate := by
  decide +kernel

/-! ### C206 -/

theorem fill_valid (scratch : Assembly.Dist V) (k : V) (blocks : List (BlockField V))
    (hv : ∀ b ∈ blocks, ValidPick scratch b) : ∀ b ∈ blocks.map (fill k), ValidPick scratch b := by
  intro b hb
  obtain ⟨b0, hb0, rfl⟩ := List.mem_map.1 hb
  exact hv b0 hb0

theorem fill_contributions (k : V) (blocks : List (BlockField V)) (g : Nat) :
    contributions (blocks.map (fill k)) g = List.replicate (contributions blocks g).length k := by
  rw [List.eq_replicate_iff]
  constructor
  · have e : (blocks.map (fill k)).map (fun b => b.data.map (·.map (·.map Prod.fst))) =
        blocks.map (fun b => b.data.map (·.map (·.map Prod.fst))) := by
      rw [List.map_map]
      apply List.map_congr_left
      intro b _
      simp only [Function.comp_apply, fill]
      cases b.data with
      | none => rfl
      | some d => simp [Function.comp_def]
    rw [length_contributions, length_contributions, e]
  · intro v hv
    obtain ⟨f, hf, q, d, part, hd, hp, hm⟩ := (mem_contributions _ _ _).1 hv
    obtain ⟨b, -, rfl⟩ := List.mem_map.1 hf
    simp only [fill, Option.map_eq_some_iff] at hd
    obtain ⟨d0, -, rfl⟩ := hd
    rw [List.getElem?_map, Option.map_eq_some_iff] at hp
    obtain ⟨p0, -, rfl⟩ := hp
    obtain ⟨e, -, he⟩ := List.mem_map.1 hm
    exact (congrArg Prod.snd he).symm

theorem times_contributions [AddCommMonoid V] (scratch : Assembly.Dist V) (k : V) (blocks : List (BlockField V))
    (hv : ∀ b ∈ blocks, ValidPick scratch b) (g : Nat) (hg : ∃ p, Owns scratch p g) (n : Nat) :
    (∀ b ∈ synchronizedTimes scratch (blocks.map (fill k)) n, ValidPick scratch b) ∧
    contributions (synchronizedTimes scratch (blocks.map (fill k)) n) g =
      List.replicate (contributions blocks g).length ((contributions blocks g).length ^ n • k) := by
  induction n with
  | zero =>
    rw [synchronizedTimes, pow_zero, one_nsmul]
    exact ⟨fill_valid scratch k blocks hv, fill_contributions k blocks g⟩
  | succ n ih =>
    obtain ⟨hv', hc⟩ := ih
    rw [synchronizedTimes]
    refine ⟨valid_synchronize scratch _ hv', ?_⟩
    rw [contributions_synchronize scratch _ hv' g hg, hc, List.length_replicate, List.sum_replicate, ← mul_nsmul,
      pow_succ]

/-- C206: a field that is set to a constant in all copies and then synchronised `n` times holds that constant times the
number of copies of the point to the power `n`. -/
theorem C206_multiplied [AddCommMonoid V] (scratch : Assembly.Dist V) (k : V) (blocks : List (BlockField V))
    (hv : ∀ b ∈ blocks, ValidPick scratch b) (n p g : Nat) (ho : Owns scratch p g) (b : BlockField V)
    (hb : b ∈ synchronizedTimes scratch (blocks.map (fill k)) n) (q : Nat) (v : V) (hc : Copy b q g v) :
    v = (contributions blocks g).length ^ n • k := by
  have h := (times_contributions scratch k blocks hv g ⟨p, ho⟩ n).2
  have hm : v ∈ contributions (synchronizedTimes scratch (blocks.map (fill k)) n) g :=
    (mem_contributions _ _ _).2 ⟨b, hb, q, hc⟩
  rw [h] at hm
  exact List.eq_of_mem_replicate hm

/-- C206 is false as intended: the Jacobian determinant, which is one in the undeformed body, is the number of copies of
the point after the set-up, hence one only where the point has no ghosts in other blocks or on other processors. -/
theorem C206_jacobian (scratch : Assembly.Dist ℝ) (blocks : List (BlockField ℝ))
    (hv : ∀ b ∈ blocks, ValidPick scratch b) (p g : Nat) (ho : Owns scratch p g) (b : BlockField ℝ)
    (hb : b ∈ synchronizedTimes scratch (blocks.map (fill 1)) 1) (q : Nat) (v : ℝ) (hc : Copy b q g v) :
    v = (contributions blocks g).length ∧ (v = 1 ↔ (contributions blocks g).length = 1) := by
  have h := C206_multiplied scratch 1 blocks hv 1 p g ho b hb q v hc
  rw [pow_one, nsmul_eq_mul, mul_one] at h
  subst h
  exact ⟨rfl, by norm_cast⟩

/-- C206: the flying point flag, which is -1 for points that are not flying, stays negative, whatever the number of
synchronisations; its value is minus a power of the number of copies. -/
theorem C206_flag (scratch : Assembly.Dist ℝ) (blocks : List (BlockField ℝ))
    (hv : ∀ b ∈ blocks, ValidPick scratch b) (n p g : Nat) (ho : Owns scratch p g) (b : BlockField ℝ)
    (hb : b ∈ synchronizedTimes scratch (blocks.map (fill (-1))) n) (q : Nat) (v : ℝ) (hc : Copy b q g v) :
    v = -((contributions blocks g).length : ℝ) ^ n ∧ v < 0 := by
  have h := C206_multiplied scratch (-1) blocks hv n p g ho b hb q v hc
  rw [nsmul_eq_mul, mul_neg, mul_one, Nat.cast_pow] at h
  have hpos : 0 < (contributions blocks g).length := by
    have hm : v ∈ contributions (synchronizedTimes scratch (blocks.map (fill (-1))) n) g :=
      (mem_contributions _ _ _).2 ⟨b, hb, q, hc⟩
    rw [(times_contributions scratch (-1) blocks hv g ⟨p, ho⟩ n).2] at hm
    by_contra h0
    rw [Nat.eq_zero_of_not_pos h0] at hm
    cases hm
  refine ⟨h, ?_⟩
  rw [h]
  have : (0 : ℝ) < ((contributions blocks g).length : ℝ) ^ n := by positivity
  linarith

example : (synchronizedTimes demoGlobal ([demoA, demoB].map (fill 1)) 1).map BlockField.data =
      [some [[(3, 2), (7, 2)], [(5, 1)]], some [[], [(7, 2), (3, 2)]]] ∧
    (synchronizedTimes demoGlobal ([demoA, demoB].map (fill (-1))) 3).map BlockField.data =
      [some [[(3, -8), (7, -8)], [(5, -1)]], some [[], [(7, -8), (3, -8)]]] := by
  decide +kernel

end Verif.Synch
