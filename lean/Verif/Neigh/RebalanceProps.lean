import Verif.Neigh.RebalanceLemmas

/-!
# Property C14: moving a neighbor list to another decomposition
-/

namespace Verif.Neigh

open Verif Verif.Redist

/-- The neighbor list `c.list` of a processor says, through the processor's overlap ids, that each
owned point `g` has the neighbors `nb g` (by global id, in this order). -/
def Holds (nb : Nat → List Nat) (c : NbPart) : Prop :=
  ∃ lists, c.list = encode lists ∧
    List.Forall₂ (fun lids g => lids.map (fun l => c.overlap[l]?) = (nb g).map some) lists c.owned

/-- An import may take the data of `g` from any processor that owns it. -/
def ValidPick (pick : Nat → Nat → Nat) (cur : List NbPart) (tgt : List (List Nat)) : Prop :=
  ∀ (p : Nat) O, tgt[p]? = some O → ∀ g ∈ O, ∃ c, cur[pick p g]? = some c ∧ g ∈ c.owned

/-- C14: let the current decomposition hold the neighbor lists `nb`, and let every point of the target
decomposition be held by some processor.  Then the move succeeds on every processor, and afterwards
every processor holds the same neighbors, in the same order, for the points it shall own; its overlap
map lists those points first and then, increasing and each once, exactly the neighbors it does not own. -/
theorem C14_same_neighbors (nb : Nat → List Nat) (cur : List NbPart) (tgt : List (List Nat))
    (pick1 pick2 : Nat → Nat → Nat) (hn : ∀ c ∈ cur, c.owned.Nodup) (hh : ∀ c ∈ cur, Holds nb c)
    (hp1 : ValidPick pick1 cur tgt) (hp2 : ValidPick pick2 cur tgt) :
    ∃ res, rebalanceLists pick1 pick2 cur tgt = .ok res ∧ res.map NbPart.owned = tgt ∧
      ∀ r ∈ res, Holds nb r ∧ ∃ ghosts, r.overlap = r.owned ++ ghosts ∧
        ghosts.Pairwise (· < ·) ∧
        ∀ g, g ∈ ghosts ↔ (∃ o ∈ r.owned, g ∈ nb o) ∧ g ∉ r.owned := by
  have h1 : allOk prepare cur = .ok ((cur.map NbPart.owned).map (preparedOf nb)) := by
    rw [allOk_iff, List.map_map, List.forall₂_map_right_iff, List.forall₂_same]
    intro c hc
    obtain ⟨lists, hl, hr⟩ := hh c hc
    refine prepare_eq nb c lists hl ?_
    rw [List.forall₂_map_right_iff]
    exact hr
  have hcur : ∀ G ∈ cur.map NbPart.owned, G.Nodup := by
    intro G hG
    obtain ⟨c, hc, rfl⟩ := List.mem_map.1 hG
    exact hn c hc
  have hpick : ∀ pick : Nat → Nat → Nat, ValidPick pick cur tgt → ∀ (k : Nat) O, tgt[k]? = some O →
      ∀ g ∈ O, ∃ G, (cur.map NbPart.owned)[pick (0 + k) g]? = some G ∧ g ∈ G := by
    intro pick hv k O hk g hg
    obtain ⟨c, hc, hgc⟩ := hv k O hk g hg
    exact ⟨c.owned, by simp [hc], hgc⟩
  have h2 := receiveAll_eq nb pick1 pick2 (cur.map NbPart.owned) hcur 0 tgt
    (hpick pick1 hp1) (hpick pick2 hp2)
  refine ⟨_, by rw [rebalanceLists, h1]; exact h2, by simp [Function.comp_def, movedTo], ?_⟩
  intro r hr
  obtain ⟨O, hO, rfl⟩ := List.mem_map.1 hr
  refine ⟨⟨_, rfl, ?_⟩, _, rfl, sorted_sortUnique _, fun g => mem_offProcIds nb O g⟩
  rw [List.forall₂_map_left_iff]
  simp only [movedTo]
  rw [List.forall₂_same]
  intro o ho
  rw [List.map_map]
  apply List.map_congr_left
  intro g hg
  have hm : g ∈ O ++ offProcIds O (O.flatMap fun o => nbBlock (nb o)) := by
    by_cases hm : g ∈ O
    · exact List.mem_append_left _ hm
    · exact List.mem_append_right _ ((mem_offProcIds nb O g).2 ⟨⟨o, ho, hg⟩, hm⟩)
  exact readAt_eq_ok.1 (readAt_idxOf _ _ hm)

/-- Two processors; point 0 has no neighbors; the points change places. -/
def demoNb : Nat → List Nat := fun g => if g = 1 then [2, 0] else if g = 2 then [1] else []

/-- The current decomposition of the example. -/
def demoCur : List NbPart := [⟨[1], [1, 0, 2], [2, 2, 1]⟩, ⟨[2, 0], [2, 0, 1], [1, 2, 0]⟩]

example : (∀ c ∈ demoCur, c.owned.Nodup) ∧ (∀ c ∈ demoCur, Holds demoNb c) ∧
    ValidPick (fun _ g => if g = 1 then 0 else 1) demoCur [[0, 1], [2]] := by
  refine ⟨by decide, ?_, ?_⟩
  · intro c hc
    simp only [demoCur, List.mem_cons, List.not_mem_nil, or_false] at hc
    rcases hc with rfl | rfl
    · exact ⟨[[2, 1]], by decide, .cons (by decide) .nil⟩
    · exact ⟨[[2], []], by decide, .cons (by decide) (.cons (by decide) .nil)⟩
  · intro p O hp g hg
    match p, hp with
    | 0, hp =>
      cases hp
      simp only [List.mem_cons, List.not_mem_nil, or_false] at hg
      rcases hg with rfl | rfl
      · exact ⟨⟨[2, 0], [2, 0, 1], [1, 2, 0]⟩, rfl, by decide⟩
      · exact ⟨⟨[1], [1, 0, 2], [2, 2, 1]⟩, rfl, by decide⟩
    | 1, hp =>
      cases hp
      simp only [List.mem_cons, List.not_mem_nil, or_false] at hg
      subst hg
      exact ⟨⟨[2, 0], [2, 0, 1], [1, 2, 0]⟩, rfl, by decide⟩
    | n + 2, hp => simp at hp

example : rebalanceLists (fun _ g => if g = 1 then 0 else 1) (fun _ g => if g = 1 then 0 else 1) demoCur
    [[0, 1], [2]] = .ok [⟨[0, 1], [0, 1, 2], [0, 2, 2, 0]⟩, ⟨[2], [2, 1], [1, 1]⟩] := by decide

end Verif.Neigh
