import Verif.Damage.InterfaceLemmas

/-!
# Property C131: where the interface-aware damage model breaks bonds
-/

noncomputable section

namespace Verif.Damage

open Verif Verif.Mech Verif.Neigh Verif.Assembly
open scoped Classical

/-- C131, the set-up: when it succeeds with an interface-aware block, every copy of a point, as owned point or as ghost, in
any block and on any processor, holds the critical stretch of the block the point belongs to. -/
theorem C131_copies (global : Assembly.Dist ℝ) (blocks : List BlockSetup) (fields : List (BlockField ℝ))
    (hp : Partitioned blocks) (hv : ∀ b ∈ blocks, ValidPick global (initialField b))
    (hsome : ∃ b ∈ blocks, b.crit ≠ none) (h : prepare global blocks = .ok fields) :
    fields.map (fun b => b.data.map (·.map (·.map Prod.fst))) =
        blocks.map (fun b => some (b.parts.map Prod.snd)) ∧
      ∀ f ∈ fields, ∀ d, f.data = some d → ∀ part ∈ d, ∀ e ∈ part, ∀ c, (∃ p, Owns global p e.1) →
        CriticalOf blocks e.1 c → e.2 = c := by
  rw [prepare, if_pos hsome] at h
  split at h
  · cases h
  · next hno =>
    have hall : ∀ b ∈ blocks, b.crit ≠ none := fun b hb hc => hno ⟨b, hb, hc⟩
    cases h
    have hv' : ∀ b ∈ blocks.map initialField, ValidPick global b := by
      intro b hb
      obtain ⟨b0, h0, rfl⟩ := List.mem_map.1 hb
      exact hv b0 h0
    obtain ⟨h1, h2⟩ := C13_every_copy_partial global (blocks.map initialField) hv'
    constructor
    · rw [h1, List.map_map]
      apply List.map_congr_left
      intro b hb
      obtain ⟨c, hc⟩ := Option.ne_none_iff_exists'.1 (hall b hb)
      simp only [Function.comp_apply, initialField, hc, Option.map_some, List.map_map]
      congr 1
      apply List.map_congr_left
      intro p _
      simp only [Function.comp_apply, initialPart, List.map_map]
      exact List.map_id _
    · intro f hf d hd part hpart e he c ho hc
      rw [h2 f hf d hd part hpart e he ho]
      exact contributions_owner hp hall hc

/-- C131, the set-up: an analysis in which some blocks use this model and others do not is refused. -/
theorem C131_mixed (global : Assembly.Dist ℝ) (blocks : List BlockSetup) (b b' : BlockSetup) (hb : b ∈ blocks)
    (hb' : b' ∈ blocks) (h : b.crit ≠ none) (h' : b'.crit = none) : prepare global blocks = .fail .terminate := by
  rw [prepare, if_pos ⟨b, hb, h⟩, if_pos ⟨b', hb', h'⟩]

theorem afterBond_iff (c e : ℝ) : (afterBond c e 0 = 1 ↔ c < e) ∧ (afterBond c e 0 = 0 ↔ ¬ c < e) := by
  unfold afterBond trialDamage
  by_cases hlt : c < e
  · simp [hlt]
  · simp [hlt]

/-- C131: after the set-up, an evaluation of any block on any processor that takes no further point out as rank deficient
breaks a whole bond exactly if its stretch exceeds the smaller of the critical stretches of the two blocks its ends belong
to, provided the neighbor's is not zero.  `hf`, `hd`, `hpart`: the array of the evaluated block on the processor; `c` and `c'`:
the critical stretches of the block and of the neighbor's block. -/
theorem C131_break (global : Assembly.Dist ℝ) (blocks : List BlockSetup) (fields : List (BlockField ℝ))
    (hp : Partitioned blocks) (hv : ∀ b ∈ blocks, ValidPick global (initialField b))
    (h : prepare global blocks = .ok fields)
    (m q : Nat) (B : BlockSetup) (f : BlockField ℝ) (d : Assembly.Dist ℝ) (part : Assembly.Part ℝ) (c : ℝ) (hB : blocks[m]? = some B)
    (hc : B.crit = some c) (hf : fields[m]? = some f) (hd : f.data = some d) (hpart : d[q]? = some part)
    (ids : List Nat) (nbs : List (List Nat)) (I : Input) (s s' : State × List Nat) (hlen : ids.length = nbs.length)
    (he : interfaceBlock c part ids (encode nbs) I s = .ok s') (hset : s'.2 = s.2)
    (p t i j : Nat) (hb : IsBond ids nbs p t i j) (h0 : s.1.bondNP1 (bondPos nbs p t) = 0)
    (e : Nat × ℝ) (hj : part[j]? = some e) (c' : ℝ) (hown : ∃ p, Owns global p e.1) (hc' : CriticalOf blocks e.1 c')
    (hz : c' ≠ 0) :
    (s'.1.bondNP1 (bondPos nbs p t) = 1 ↔ min c c' < stretch I i j) ∧
      (s'.1.bondNP1 (bondPos nbs p t) = 0 ↔ ¬ min c c' < stretch I i j) := by
  have hsome : ∃ b ∈ blocks, b.crit ≠ none := ⟨B, List.mem_of_getElem? hB, by rw [hc]; simp⟩
  have hv2 := (C131_copies global blocks fields hp hv hsome h).2 f (List.mem_of_getElem? hf) d hd part
    (List.mem_of_getElem? hpart) e (List.mem_of_getElem? hj) c' hown hc'
  have hr : readField part j = c' := by rw [readField, hj, Option.elim_some, hv2]
  rcases interface_spec hlen he hset hb with ⟨h1 | h1, _⟩ | ⟨_, _, h2⟩
  · exact absurd h0 h1
  · exact absurd (hr ▸ h1) hz
  · rw [hr, h0] at h2
    have hm : (if c' < c then c' else c) = min c c' := by
      by_cases hlt : c' < c
      · rw [if_pos hlt, min_eq_right hlt.le]
      · rw [if_neg hlt, min_eq_left (not_lt.1 hlt)]
    rw [hm] at h2
    rw [h2]
    exact afterBond_iff _ _

/-- C131: critical stretch zero in the neighbor's block means that no stretch breaks the bond. -/
theorem C131_zero (global : Assembly.Dist ℝ) (blocks : List BlockSetup) (fields : List (BlockField ℝ))
    (hp : Partitioned blocks) (hv : ∀ b ∈ blocks, ValidPick global (initialField b))
    (h : prepare global blocks = .ok fields)
    (m q : Nat) (B : BlockSetup) (f : BlockField ℝ) (d : Assembly.Dist ℝ) (part : Assembly.Part ℝ) (c : ℝ) (hB : blocks[m]? = some B)
    (hc : B.crit = some c) (hf : fields[m]? = some f) (hd : f.data = some d) (hpart : d[q]? = some part)
    (ids : List Nat) (nbs : List (List Nat)) (I : Input) (s s' : State × List Nat) (hlen : ids.length = nbs.length)
    (he : interfaceBlock c part ids (encode nbs) I s = .ok s') (hset : s'.2 = s.2)
    (p t i j : Nat) (hb : IsBond ids nbs p t i j)
    (e : Nat × ℝ) (hj : part[j]? = some e) (hown : ∃ p, Owns global p e.1) (hc' : CriticalOf blocks e.1 0) :
    s'.1.bondNP1 (bondPos nbs p t) = s.1.bondNP1 (bondPos nbs p t) := by
  have hsome : ∃ b ∈ blocks, b.crit ≠ none := ⟨B, List.mem_of_getElem? hB, by rw [hc]; simp⟩
  have hv2 := (C131_copies global blocks fields hp hv hsome h).2 f (List.mem_of_getElem? hf) d hd part
    (List.mem_of_getElem? hpart) e (List.mem_of_getElem? hj) 0 hown hc'
  have hr : readField part j = 0 := by rw [readField, hj, Option.elim_some, hv2]
  rcases interface_spec hlen he hset hb with ⟨_, h2⟩ | ⟨_, h1, _⟩
  · exact h2
  · exact absurd hr h1

/-! ### A case: two blocks on two processors -/

/-- Points 10 and 11 are in a block with critical stretch 1, on the first processor; point 12 is in a block with critical
stretch 2, on the second. -/
def setupDemo : List BlockSetup :=
  [⟨some 1, [([10, 11], [10, 11, 12]), ([], [])], fun _ g => if g = 12 then 1 else 0⟩,
    ⟨some 2, [([], []), ([12], [12, 10, 11])], fun _ g => if g = 12 then 1 else 0⟩]

/-- The global owned map of the case. -/
def globalDemo : Assembly.Dist ℝ := [[(10, 0), (11, 0)], [(12, 0)]]

theorem setupDemo_partitioned : Partitioned setupDemo := by
  constructor
  · simp [setupDemo]
  · simp only [setupDemo, List.mem_cons, List.not_mem_nil, or_false, forall_eq_or_imp, forall_eq]
    simp

theorem setupDemo_valid : ∀ b ∈ setupDemo, ValidPick globalDemo (initialField b) := by
  have key : ∀ (g p : Nat), Owns globalDemo p g → (if g = 12 then 1 else 0) = p := by
    rintro g p ⟨part, hp, hg⟩
    match p, hp with
    | 0, hp =>
      cases hp
      simp at hg
      rcases hg with rfl | rfl <;> rfl
    | 1, hp =>
      cases hp
      simp at hg
      rw [if_pos hg]
    | n + 2, hp => simp [globalDemo] at hp
  intro b hb q g p ho
  simp only [setupDemo, List.mem_cons, List.not_mem_nil, or_false] at hb
  rcases hb with rfl | rfl
  · exact key g p ho
  · exact key g p ho

/-- The hypotheses about the set-up are met, the set-up succeeds, and its result is as the property says: the ghosts have
the values of their own blocks. -/
example : Partitioned setupDemo ∧ (∀ b ∈ setupDemo, ValidPick globalDemo (initialField b)) ∧
    prepare globalDemo setupDemo = .ok (synchronize globalDemo (setupDemo.map initialField)) ∧
    (∃ p, Owns globalDemo p 12) ∧ CriticalOf setupDemo 12 2 ∧ CriticalOf setupDemo 10 1 := by
  refine ⟨setupDemo_partitioned, setupDemo_valid, ?_, ⟨1, _, rfl, by simp⟩, ?_, ?_⟩
  · rw [prepare, if_pos, if_neg]
    · simp [setupDemo]
    · simp [setupDemo]
  · exact ⟨_, List.mem_cons_of_mem _ List.mem_cons_self, rfl, _, List.mem_cons_of_mem _ List.mem_cons_self, by simp⟩
  · exact ⟨_, List.mem_cons_self, rfl, _, List.mem_cons_self, by simp⟩

/-- Such a bond: from the first point of the first block to its ghost. -/
example : IsBond [0, 1] [[1, 2, 2], [0, 2, 2]] 0 1 0 2 := ⟨rfl, _, rfl, rfl⟩

end Verif.Damage
