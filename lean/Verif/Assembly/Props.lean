import Verif.Assembly.Lemmas

/-!
# Properties C12 and C13: gathering and synchronising block data
-/

namespace Verif.Assembly

variable {V : Type}

/-- C12: the assembled value at an owned point is the sum of everything any block on any processor
stored for that global id. -/
theorem C12_total [AddCommMonoid V] (global : Dist V) (blocks : List (BlockField V))
    (hv : ∀ b ∈ blocks, ValidPick global b) (p g : Nat) (ho : Owns global p g) :
    lookup (gather global blocks) p g = some (contributions blocks g).sum := by
  rw [(lookup_gather global blocks p g).1 ho, sum_contributions blocks global p g hv ho]

/-- C12: the order of the blocks does not matter. -/
theorem C12_order [AddCommMonoid V] (global : Dist V) (blocks blocks' : List (BlockField V))
    (h : blocks.Perm blocks') : gather global blocks = gather global blocks' := by
  rw [gather_shift, gather_shift]
  congr 1
  funext p x
  exact (h.map _).sum_eq

/-- C12: the assembled vector lives on the global owned map whatever was in it before. -/
theorem C12_fresh [AddCommMonoid V] (global global' : Dist V) (blocks : List (BlockField V))
    (h : global.map (·.map Prod.fst) = global'.map (·.map Prod.fst)) :
    gather global blocks = gather global' blocks := by
  have hz : zeroOut global = zeroOut global' := by
    have e : ∀ t : Dist V, zeroOut t = (t.map (·.map Prod.fst)).map (·.map fun k => (k, (0 : V))) := by
      intro t; simp [zeroOut, Function.comp_def]
    rw [e, e, h]
  rw [gather_shift, gather_shift, hz]

/-- Two processors, two blocks; point 7 is owned by processor 1 and is a ghost elsewhere. -/
def demoGlobal : Dist Int := [[(3, 0)], [(7, 0), (5, 0)]]

/-- The owner of an id in the example. -/
def demoPick : Nat → Nat → Nat := fun _ g => if g = 3 then 0 else 1

/-- First block of the example. -/
def demoA : BlockField Int := ⟨some [[(3, 10), (7, 1)], [(5, 2)]], demoPick⟩

/-- Second block of the example. -/
def demoB : BlockField Int := ⟨some [[], [(7, 20), (3, 4)]], demoPick⟩

theorem demo_valid : ∀ b ∈ [demoA, demoB], ValidPick demoGlobal b := by
  intro b hb q g p ho
  have hpick : b.pick = demoPick := by
    simp only [List.mem_cons, List.not_mem_nil, or_false] at hb
    rcases hb with rfl | rfl <;> rfl
  rw [hpick]
  obtain ⟨part, hp, hg⟩ := ho
  match p, hp with
  | 0, hp => cases hp; simp at hg; simp [demoPick, hg]
  | 1, hp => cases hp; simp at hg; rcases hg with rfl | rfl <;> rfl
  | n + 2, hp => simp [demoGlobal] at hp

example : Owns demoGlobal 1 7 ∧ contributions [demoA, demoB] 7 = [1, 20] ∧
    lookup (gather demoGlobal [demoA, demoB]) 1 7 = some 21 :=
  ⟨⟨_, rfl, by decide⟩, by decide, by decide⟩

/-! ### C13 -/

theorem receiveInsert_fst (r : Option V) (e : Nat × V) : (receiveInsert r e).1 = e.1 := by
  cases r <;> rfl

/-- The value of a copy after synchronisation. -/
theorem sync_entry [AddCommMonoid V] (global : Dist V) (blocks : List (BlockField V))
    (hv : ∀ b ∈ blocks, ValidPick global b) (b : BlockField V) (hb : b ∈ blocks) (q : Nat)
    (e : Nat × V) (hg : ∃ p, Owns global p e.1) :
    (receiveInsert (lookup (gather global blocks) (b.pick q e.1) e.1) e) = (e.1, (contributions blocks e.1).sum) := by
  obtain ⟨p, ho⟩ := hg
  rw [hv b hb q e.1 p ho, C12_total global blocks hv p e.1 ho]
  rfl

/-- C13, first half (`_partial`: the second half of the property, that a further synchronisation
changes nothing, is false, see `C13_again_multiplies` and `C13_not_idempotent`): after a
synchronisation every block holds the same ids in the same places as before, and every copy of an
owned point, on any processor and in any block that has the field, holds the sum of all
contributions. -/
theorem C13_every_copy_partial [AddCommMonoid V] (global : Dist V) (blocks : List (BlockField V))
    (hv : ∀ b ∈ blocks, ValidPick global b) :
    (synchronize global blocks).map (fun b => b.data.map (·.map (·.map Prod.fst))) =
        blocks.map (fun b => b.data.map (·.map (·.map Prod.fst))) ∧
      ∀ b ∈ synchronize global blocks, ∀ d, b.data = some d → ∀ part ∈ d, ∀ e ∈ part,
        (∃ p, Owns global p e.1) → e.2 = (contributions blocks e.1).sum := by
  constructor
  · unfold synchronize
    rw [List.map_map]
    apply List.map_congr_left
    intro b hb
    simp only [Function.comp_apply, importInsert]
    cases b.data with
    | none => rfl
    | some d =>
      simp only [Option.map_some]
      congr 1
      apply List.ext_getElem
      · simp
      · intro i h1 h2
        simp only [List.getElem_map, List.getElem_mapIdx, List.map_map]
        apply List.map_congr_left
        intro e _
        simp only [Function.comp_apply]
        exact receiveInsert_fst _ _
  · intro b' hb' d hd part hpart e he hown
    unfold synchronize at hb'
    obtain ⟨b, hb, rfl⟩ := List.mem_map.1 hb'
    simp only [importInsert, Option.map_eq_some_iff] at hd
    obtain ⟨d0, hd0, rfl⟩ := hd
    obtain ⟨q, hq, rfl⟩ := List.getElem_of_mem hpart
    simp only [List.getElem_mapIdx, List.mem_map] at he
    obtain ⟨e0, he0, rfl⟩ := he
    have hfst : (receiveInsert (lookup (gather global blocks) (b.pick q e0.1) e0.1) e0).1 = e0.1 := receiveInsert_fst _ _
    rw [hfst] at hown ⊢
    rw [sync_entry global blocks hv b hb q e0 hown]

example : (synchronize demoGlobal [demoA, demoB]).map BlockField.data = ([some [[(3, 14), (7, 21)],
    [(5, 2)]], some [[], [(7, 21), (3, 14)]]] : List (Option (Dist Int))) := by decide

/-- What a second synchronisation does: it multiplies by the number of copies. -/
theorem C13_again_multiplies [AddCommMonoid V] (global : Dist V) (blocks : List (BlockField V))
    (hv : ∀ b ∈ blocks, ValidPick global b) (g : Nat) (hg : ∃ p, Owns global p g) :
    (contributions (synchronize global blocks) g).sum =
      (contributions blocks g).length • (contributions blocks g).sum := by
  have key : contributions (synchronize global blocks) g =
      List.replicate (contributions blocks g).length (contributions blocks g).sum := by
    have hs : ∀ bs : List (BlockField V), (∀ b ∈ bs, b ∈ blocks) →
        contributions (bs.map fun b => importInsert b (gather global blocks)) g =
          List.replicate (contributions bs g).length (contributions blocks g).sum := by
      intro bs
      induction bs with
      | nil => intro _; rfl
      | cons b bs ih =>
        intro hsub
        have h1 := ih fun b' hb' => hsub b' (List.mem_cons_of_mem _ hb')
        have hb := hsub b List.mem_cons_self
        unfold contributions at h1 ⊢
        simp only [List.map_cons, List.flatMap_cons, List.length_append]
        rw [h1, List.replicate_add]
        congr 1
        simp only [importInsert]
        cases b.data with
        | none => rfl
        | some d =>
          simp only [Option.map_some, Option.getD_some]
          have hd : ∀ (n : Nat) (d : Dist V),
              (d.mapIdx fun q part => part.map fun e =>
                receiveInsert (lookup (gather global blocks) (b.pick (n + q) e.1) e.1) e).flatMap (fun part => (part.filter fun e => e.1 = g).map Prod.snd) =
              List.replicate (d.flatMap fun part => (part.filter fun e => e.1 = g).map
                Prod.snd).length (contributions blocks g).sum := by
            intro n d
            induction d generalizing n with
            | nil => rfl
            | cons part d ihd =>
              have h2 := ihd (n + 1)
              simp only [Nat.add_assoc] at h2
              rw [List.mapIdx_cons, List.flatMap_cons, List.flatMap_cons, List.length_append,
                List.replicate_add]
              have e2 : (d.mapIdx fun i part => List.map (fun e =>
                  receiveInsert (lookup (gather global blocks) (b.pick (n + (i + 1)) e.1) e.1) e) part) = d.mapIdx fun i part => List.map (fun e =>
                  receiveInsert (lookup (gather global blocks) (b.pick (n + (1 + i)) e.1) e.1) e) part := by
                congr 1; funext i part; rw [Nat.add_comm i 1]
              rw [e2, h2]
              congr 1
              clear h2 e2 ihd
              induction part with
              | nil => rfl
              | cons e part ihp =>
                rw [List.map_cons]
                by_cases hk : e.1 = g
                · have := sync_entry global blocks hv b hb (n + 0) e (hk ▸ hg)
                  rw [this, List.filter_cons_of_pos (by simpa using hk),
                    List.filter_cons_of_pos (by simpa using hk)]
                  simp only [List.map_cons, List.length_cons, List.replicate_succ]
                  rw [hk, ihp]
                · rw [List.filter_cons_of_neg (by simpa [receiveInsert_fst] using hk),
                    List.filter_cons_of_neg (by simpa using hk)]
                  exact ihp
          have := hd 0 d
          simp only [Nat.zero_add] at this
          exact this
    exact hs blocks fun b hb => hb
  rw [key, List.sum_replicate]

/-- The second half of C13 is false: two synchronisations in a row give 42 where one gives 21. -/
theorem C13_not_idempotent :
    ∃ (global : Dist Int) (blocks : List (BlockField Int)), (∀ b ∈ blocks, ValidPick global b) ∧
      (synchronize global (synchronize global blocks)).map BlockField.data ≠
        (synchronize global blocks).map BlockField.data :=
  ⟨demoGlobal, [demoA, demoB], demo_valid, by decide⟩

end Verif.Assembly
