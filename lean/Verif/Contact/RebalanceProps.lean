import Verif.Contact.RebalanceLemmas
import Verif.Contact.Props

/-!
# Property C30: contact search excludes bonded pairs and nothing else
-/

namespace Verif.Contact

open Verif Verif.Redist Verif.Neigh

/-- C30: a rebalance on any new decomposition, with any search result, succeeds on every processor.  Afterwards
the contact neighbors of every owned point are exactly the points the search found that are not bonded to it, in the
order found; the bonds are unchanged; the overlap ids are the owned ones followed by, increasing and each once, the
bonded and contact neighbors that are not owned. -/
theorem C30_exactly_unbonded (nb search : Nat → List Nat) (freq : Int) (step : Nat) (cur : List Part) (r : Round)
    (hf : freq ≠ 0) (hs : freq ∣ (step : Int)) (hn : ∀ c ∈ cur, c.owned.Nodup)
    (hh : ∀ c ∈ cur, HoldsBonds nb c) (hr : ValidRound nb search cur r) :
    ∃ res, rebalanceContact freq step r cur = .ok res ∧ res.map Part.owned = r.tgt.map Prod.fst ∧
      ∀ c ∈ res, HoldsBonds nb c ∧ HoldsContact (unbonded nb search) c ∧
        ∃ ghosts, c.overlap = c.owned ++ ghosts ∧ ghosts.Pairwise (· < ·) ∧
          ∀ g, g ∈ ghosts ↔ (∃ o ∈ c.owned, g ∈ nb o ∨ g ∈ unbonded nb search o) ∧ g ∉ c.owned := by
  have h1 : allOk prepareContact cur = .ok ((cur.map Part.owned).map (preparedContact nb)) := by
    rw [allOk_iff, List.map_map, List.forall₂_map_right_iff, List.forall₂_same]
    exact fun c hc => prepareContact_eq nb c (hn c hc) (hh c hc)
  have h2 := receiveContactAll_eq nb search r.pick1 r.pick2 (cur.map Part.owned) (by
      intro G hG
      obtain ⟨c, hc, rfl⟩ := List.mem_map.1 hG
      exact hn c hc) 0 r.tgt hr.nodup hr.searched
    (by
      intro k x hk g hg
      obtain ⟨c, hc, hgc⟩ := hr.pick1 k x hk g hg
      exact ⟨c.owned, by simp [hc], hgc⟩)
    (by
      intro k x hk g hg h0
      obtain ⟨c, hc, hgc⟩ := hr.pick2 k x hk g hg h0
      exact ⟨c.owned, by simp [hc], hgc⟩)
  refine ⟨_, by
    rw [rebalanceContact, if_neg hf, if_neg (by rw [not_not]; exact Int.tmod_eq_zero_of_dvd hs), h1]
    exact h2, by simp [Function.comp_def, contactMoved], ?_⟩
  intro c hc
  obtain ⟨x, _, rfl⟩ := List.mem_map.1 hc
  exact ⟨(contactMoved_holds nb search x.1).1, (contactMoved_holds nb search x.1).2, _, rfl,
    sorted_sortUnique _, fun g => mem_ghostIds nb _ x.1 g⟩

/-- C30: at the steps that are not multiples of the search frequency nothing changes. -/
theorem C30_between (freq : Int) (step : Nat) (cur : List Part) (r : Round)
    (hf : freq ≠ 0) (hs : ¬ freq ∣ (step : Int)) : rebalanceContact freq step r cur = .ok cur := by
  rw [rebalanceContact, if_neg hf, if_pos]
  exact fun h => hs (Int.dvd_of_tmod_eq_zero h)

/-- The states a run goes through: `Runs nb freq c0 n s c` says that after the calls for the steps 0 to `n` the
state is `c` and that the last search that was made found `s`.  Each search and each decomposition is arbitrary. -/
inductive Runs (nb : Nat → List Nat) (freq : Int) (c0 : List Part) :
    Nat → (Nat → List Nat) → List Part → Prop
  | first (r : Round) (s : Nat → List Nat) (c : List Part) (hr : ValidRound nb s c0 r)
      (h : rebalanceContact freq 0 r c0 = .ok c) : Runs nb freq c0 0 s c
  | skip (n : Nat) (r : Round) (s : Nat → List Nat) (c c' : List Part) (hc : Runs nb freq c0 n s c)
      (hd : ¬ freq ∣ ((n + 1 : Nat) : Int)) (h : rebalanceContact freq (n + 1) r c = .ok c') :
      Runs nb freq c0 (n + 1) s c'
  | again (n : Nat) (r : Round) (s s' : Nat → List Nat) (c c' : List Part) (hc : Runs nb freq c0 n s c)
      (hd : freq ∣ ((n + 1 : Nat) : Int)) (hr : ValidRound nb s' c r)
      (h : rebalanceContact freq (n + 1) r c = .ok c') : Runs nb freq c0 (n + 1) s' c'

/-- C30 over a whole run: however often the points were moved between processors, the contact neighbors are those of
the last search minus the points bonded in the input.  (Bonds that have broken in the meantime still count as
bonds; see DESIGN.md.) -/
theorem C30_run (nb : Nat → List Nat) (freq : Int) (hf : freq ≠ 0) (c0 : List Part)
    (hn : ∀ c ∈ c0, c.owned.Nodup) (hh : ∀ c ∈ c0, HoldsBonds nb c) (n : Nat) (s : Nat → List Nat)
    (cs : List Part) (h : Runs nb freq c0 n s cs) :
    ∀ c ∈ cs, c.owned.Nodup ∧ HoldsBonds nb c ∧ HoldsContact (unbonded nb s) c := by
  have key : ∀ (step : Nat) (r : Round) (s : Nat → List Nat) (cur res : List Part),
      freq ∣ (step : Int) → (∀ c ∈ cur, c.owned.Nodup) → (∀ c ∈ cur, HoldsBonds nb c) →
      ValidRound nb s cur r → rebalanceContact freq step r cur = .ok res →
      ∀ c ∈ res, c.owned.Nodup ∧ HoldsBonds nb c ∧ HoldsContact (unbonded nb s) c := by
    intro step r s cur res hd hn hh hr hres c hc
    obtain ⟨res', h1, h2, h3⟩ := C30_exactly_unbonded nb s freq step cur r hf hd hn hh hr
    rw [h1] at hres
    cases hres
    refine ⟨?_, (h3 c hc).1, (h3 c hc).2.1⟩
    have : c.owned ∈ r.tgt.map Prod.fst := by rw [← h2]; exact List.mem_map_of_mem hc
    obtain ⟨x, hx, hxe⟩ := List.mem_map.1 this
    rw [← hxe]
    exact hr.nodup x hx
  induction h with
  | first r s c hr h => exact key 0 r s c0 c (by simp) hn hh hr h
  | skip n r s c c' hc hd h ih =>
    rw [C30_between freq (n + 1) c r hf hd] at h
    cases h
    exact ih
  | again n r s s' c c' hc hd hr h ih =>
    exact key (n + 1) r s' c c' hd (fun x hx => (ih x hx).1) (fun x hx => (ih x hx).2.1) hr h

/-- C30: the contact lists of a run hold only valid local ids, so the force evaluation does not stop on one. -/
theorem C30_valid_ids (nb search : Nat → List Nat) (c : Part) (h : HoldsContact (unbonded nb search) c) :
    ∃ lists : List (List Nat), c.contact = listOf lists ∧ lists.length = c.contactOwned.length ∧
      ∀ ls ∈ lists, ∀ l ∈ ls, l < c.overlap.length := by
  obtain ⟨h0, lists, h1, h2⟩ := h
  refine ⟨lists, h1, ?_, ?_⟩
  · rw [h2.length_eq]
    have := congrArg List.length h0
    simpa using this.symm
  · intro ls hls l hl
    obtain ⟨k, hk⟩ := List.getElem?_of_mem hls
    have hk' : k < lists.length := (List.getElem?_eq_some_iff.1 hk).1
    have := (List.forall₂_iff_get.1 h2).2 k hk' (by rw [← h2.length_eq]; exact hk')
    rw [show lists.get ⟨k, hk'⟩ = ls from (List.getElem?_eq_some_iff.1 hk).2] at this
    have hm : c.overlap[l]? ∈ ls.map fun l => c.overlap[l]? := List.mem_map.2 ⟨l, hl, rfl⟩
    rw [this] at hm
    obtain ⟨g, _, hg⟩ := List.mem_map.1 hm
    exact (List.getElem?_eq_some_iff.1 hg.symm).1

/-- Two processors with the bonds of the example of C14; the search finds all points within reach. -/
def demoParts : List Part :=
  [⟨[1], [1, 0, 2], [2, 2, 1], ⟨[1], [2]⟩, [], []⟩, ⟨[2, 0], [2, 0, 1], [1, 2, 0], ⟨[2], [1]⟩, [], []⟩]

/-- What the search of the example finds. -/
def demoSearch : Nat → List Nat := fun g => if g = 1 then [0, 2] else if g = 2 then [0, 1] else [2, 1]

/-- The round of the example. -/
def demoRound : Round :=
  ⟨[([0, 1], [2, 2, 1, 2, 0, 2]), ([2], [2, 0, 1])], fun _ g => if g = 1 then 0 else 1,
    fun _ g => if g = 1 then 0 else 1⟩

theorem demo_valid : ValidRound demoNb demoSearch demoParts demoRound := by
  have hp : ∀ (p : Nat) (x : List Nat × List Nat), demoRound.tgt[p]? = some x → ∀ g ∈ x.1,
      ∃ c, demoParts[(if g = 1 then 0 else 1 : Nat)]? = some c ∧ g ∈ c.owned := by
    intro p x hp g hg
    match p, hp with
    | 0, hp =>
      cases hp
      simp only [List.mem_cons, List.not_mem_nil, or_false] at hg
      rcases hg with rfl | rfl
      · exact ⟨_, rfl, by decide⟩
      · exact ⟨_, rfl, by decide⟩
    | 1, hp =>
      cases hp
      simp only [List.mem_cons, List.not_mem_nil, or_false] at hg
      subst hg
      exact ⟨_, rfl, by decide⟩
    | n + 2, hp => simp [demoRound] at hp
  exact ⟨by decide, by decide, hp, fun p x h g hg _ => hp p x h g hg⟩

theorem demo_holds : ∀ c ∈ demoParts, HoldsBonds demoNb c := by
  intro c hc
  simp only [demoParts, List.mem_cons, List.not_mem_nil, or_false] at hc
  rcases hc with rfl | rfl
  · exact ⟨⟨[[2, 1]], by decide, .cons (by decide) .nil⟩, by decide⟩
  · exact ⟨⟨[[2], []], by decide, .cons (by decide) (.cons (by decide) .nil)⟩, by decide⟩

/-- Non-vacuity: point 0 has no bonds and so two contact neighbors, point 2 is not bonded to 0. -/
example : rebalanceContact 5 10 demoRound demoParts = .ok
    [⟨[0, 1], [0, 1, 2], [0, 2, 2, 0], ⟨[1], [2]⟩, [0, 1], [2, 2, 1, 0]⟩,
     ⟨[2], [2, 0, 1], [1, 2], ⟨[2], [1]⟩, [0], [1, 1]⟩] := by decide

example : ∃ cs, Runs demoNb 5 demoParts 1 demoSearch cs ∧ cs.length = 2 := by
  obtain ⟨res, h1, h2, _⟩ := C30_exactly_unbonded demoNb demoSearch 5 0 demoParts demoRound (by decide) (by decide)
    (by decide) demo_holds demo_valid
  refine ⟨res, .skip 0 demoRound demoSearch res res (.first demoRound demoSearch res demo_valid h1) (by decide)
    (C30_between 5 1 res demoRound (by decide) (by decide)), ?_⟩
  have := congrArg List.length h2
  simpa [demoRound] using this

end Verif.Contact
