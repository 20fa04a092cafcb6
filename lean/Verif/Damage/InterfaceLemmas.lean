import Verif.Damage.InterfaceSpec
import Verif.Damage.InitialProps
import Verif.Assembly.Props

/-! Lemmas for C131. -/

noncomputable section

namespace Verif.Damage

open Verif Verif.Mech Verif.Neigh Verif.Assembly
open scoped Classical

theorem interfaceLoop_spec {crit : ℝ} {crits : Nat → ℝ} {I : Input} {ids : List Nat} {bs : List Bond}
    {d d' : Nat → ℝ} (h : interfaceLoop crit crits I ids bs d = .ok d') (hn : (bs.map (·.b)).Nodup) :
    (∀ k, k ∉ bs.map (·.b) → d' k = d k) ∧
      ∀ b ∈ bs, ((d b.b ≠ 0 ∨ crits b.j = 0) ∧ d' b.b = d b.b) ∨
        (d b.b = 0 ∧ crits b.j ≠ 0 ∧ ∃ i, ids[b.i]? = some i ∧
          d' b.b = afterBond (if crits b.j < crit then crits b.j else crit) (stretch I i b.j) (d b.b)) := by
  induction bs generalizing d with
  | nil => cases h; exact ⟨fun _ _ => rfl, fun b hb => absurd hb List.not_mem_nil⟩
  | cons b bs ih =>
    rw [interfaceLoop] at h
    split at h
    · next d1 h1 =>
      rw [List.map_cons, List.nodup_cons] at hn
      obtain ⟨ha, hb⟩ := ih h hn.2
      have hd1 : (∀ k, k ≠ b.b → d1 k = d k) ∧ (((d b.b ≠ 0 ∨ crits b.j = 0) ∧ d1 b.b = d b.b) ∨
        (d b.b = 0 ∧ crits b.j ≠ 0 ∧ ∃ i, ids[b.i]? = some i ∧
          d1 b.b = afterBond (if crits b.j < crit then crits b.j else crit) (stretch I i b.j) (d b.b))) := by
        rw [interfaceBond] at h1
        split at h1
        · next hc => cases h1; exact ⟨fun _ _ => rfl, .inl ⟨hc, rfl⟩⟩
        · next hc =>
          rw [not_or, not_not] at hc
          obtain ⟨i, hi, he⟩ := breakBond_ok h1
          rw [he]
          refine ⟨fun k hk => Function.update_of_ne hk _ _, .inr ⟨hc.1, hc.2, i, hi, ?_⟩⟩
          rw [Function.update_self]
      constructor
      · intro k hk
        rw [List.map_cons, List.mem_cons, not_or] at hk
        rw [ha k hk.2, hd1.1 k hk.1]
      · intro c hc
        rcases List.mem_cons.1 hc with rfl | hc
        · rw [ha _ hn.1]
          exact hd1.2
        · have hne : c.b ≠ b.b := fun h' => hn.1 (h' ▸ List.mem_map.2 ⟨c, hc, rfl⟩)
          have := hb c hc
          rw [hd1.1 _ hne] at this
          exact this
    · cases h
    · cases h

/-- The point loop touches bonds only when it adds a point to the set. -/
theorem interfacePoints_keep {l ids : List Nat} {pos bi : Nat} {d dm d' dm' : Nat → ℝ} {set set' : List Nat}
    (h : interfacePoints l ids pos bi d dm set = .ok (d', dm', set')) :
    set.length ≤ set'.length ∧ (set'.length = set.length → d' = d) := by
  induction ids generalizing pos bi d dm set with
  | nil => cases h; exact ⟨le_refl _, fun _ => rfl⟩
  | cons i ids ih =>
    rw [interfacePoints] at h
    split at h
    · simp only at h
      split at h
      · have := (ih h).1
        rw [List.length_append, List.length_singleton] at this
        exact ⟨by omega, fun he => by omega⟩
      · exact ih h
    · cases h
    · cases h

theorem interface_spec {crit : ℝ} {part : Assembly.Part ℝ} {ids : List Nat} {nbs : List (List Nat)} {I : Input}
    {s s' : State × List Nat} (hlen : ids.length = nbs.length)
    (h : interfaceBlock crit part ids (encode nbs) I s = .ok s') (hset : s'.2 = s.2)
    {p t i j : Nat} (hb : IsBond ids nbs p t i j) :
    ((s.1.bondNP1 (bondPos nbs p t) ≠ 0 ∨ readField part j = 0) ∧
        s'.1.bondNP1 (bondPos nbs p t) = s.1.bondNP1 (bondPos nbs p t)) ∨
      (s.1.bondNP1 (bondPos nbs p t) = 0 ∧ readField part j ≠ 0 ∧
        s'.1.bondNP1 (bondPos nbs p t) =
          afterBond (if readField part j < crit then readField part j else crit)
            (stretch I i j) (s.1.bondNP1 (bondPos nbs p t))) := by
  rw [interfaceBlock, interfaceAware, hlen, visited_encode] at h
  simp only at h
  split at h
  · next d hd =>
    split at h
    · next d' pd set hp =>
      cases h
      have e := (interfacePoints_keep hp).2 (congrArg List.length hset)
      obtain ⟨hi, ns, hns, hj⟩ := hb
      have hm := bond_mem hns hj
      obtain ⟨_, hall⟩ := interfaceLoop_spec hd (bondsOf_nodup nbs)
      simp only
      rw [e]
      rcases hall _ hm with hl | ⟨h1, h2, i', hi', h3⟩
      · exact .inl hl
      · simp only at hi'
        rw [hi] at hi'
        cases hi'
        exact .inr ⟨h1, h2, h3⟩
    · cases h
    · cases h
  · cases h
  · cases h

/-- In a list of pairs with different first components, the second components of one first component add up to
its own. -/
theorem sum_single {L : List (Nat × ℝ)} (hn : (L.map Prod.fst).Nodup) {g : Nat} {c : ℝ} (h : (g, c) ∈ L) :
    (L.map fun e => if e.1 = g then e.2 else 0).sum = c := by
  induction L with
  | nil => exact absurd h List.not_mem_nil
  | cons a L ih =>
    rw [List.map_cons, List.nodup_cons] at hn
    rw [List.map_cons, List.sum_cons]
    rcases List.mem_cons.1 h with rfl | h
    · have hz : (L.map fun e => if e.1 = g then e.2 else 0).sum = 0 := by
        apply List.sum_eq_zero
        intro x hx
        obtain ⟨e, he, rfl⟩ := List.mem_map.1 hx
        rw [if_neg]
        intro heq
        exact hn.1 (heq ▸ List.mem_map.2 ⟨e, he, rfl⟩)
      rw [hz]
      simp
    · rw [ih hn.2 h, if_neg, zero_add]
      intro heq
      exact hn.1 (heq ▸ List.mem_map.2 ⟨_, h, rfl⟩)

theorem sum_filter_eq {L : List (Nat × ℝ)} (g : Nat) :
    ((L.filter fun e => e.1 = g).map Prod.snd).sum = (L.map fun e => if e.1 = g then e.2 else 0).sum := by
  induction L with
  | nil => rfl
  | cons a L ih =>
    rw [List.map_cons, List.sum_cons, ← ih]
    by_cases h : a.1 = g
    · rw [List.filter_cons_of_pos (by simpa using h), List.map_cons, List.sum_cons, if_pos h]
    · rw [List.filter_cons_of_neg (by simpa using h), if_neg h, zero_add]

theorem sum_none {L : List (Nat × ℝ)} {g : Nat} (h : ∀ e ∈ L, e.1 = g → e.2 = 0) :
    (L.map fun e => if e.1 = g then e.2 else 0).sum = 0 := by
  apply List.sum_eq_zero
  intro x hx
  obtain ⟨e, he, rfl⟩ := List.mem_map.1 hx
  by_cases hg : e.1 = g
  · rw [if_pos hg, h e he hg]
  · rw [if_neg hg]

/-- One processor's part of a block contributes its value for the points it owns. -/
theorem part_sum {c : ℝ} {p : List Nat × List Nat} (hn : p.2.Nodup) (hs : ∀ g ∈ p.1, g ∈ p.2) (h1 : p.1.Nodup)
    (g : Nat) :
    (((initialPart c p).filter fun e => e.1 = g).map Prod.snd).sum =
      ((p.1.map fun k => (k, c)).map fun e => if e.1 = g then e.2 else 0).sum := by
  rw [sum_filter_eq]
  have hm : ((initialPart c p).map Prod.fst) = p.2 := by
    rw [initialPart, List.map_map]
    exact List.map_id _
  have hm1 : ((p.1.map fun k => (k, c)).map Prod.fst) = p.1 := by
    rw [List.map_map]
    exact List.map_id _
  by_cases hg : g ∈ p.1
  · rw [sum_single (c := c) (by rw [hm]; exact hn), sum_single (c := c) (by rw [hm1]; exact h1)]
    · exact List.mem_map.2 ⟨g, hg, rfl⟩
    · exact List.mem_map.2 ⟨g, hs g hg, by rw [if_pos hg]⟩
  · rw [sum_none, sum_none]
    · intro e he heq
      obtain ⟨k, hk, rfl⟩ := List.mem_map.1 he
      exact absurd (heq ▸ hk) hg
    · intro e he heq
      obtain ⟨k, hk, rfl⟩ := List.mem_map.1 he
      simp only at heq ⊢
      rw [if_neg (heq ▸ hg)]

/-- The pairs of owned point and critical stretch. -/
def pairsOf (blocks : List BlockSetup) : List (Nat × ℝ) :=
  blocks.flatMap fun b => b.parts.flatMap fun p => p.1.map fun k => (k, b.crit.getD 0)

theorem pairsOf_fst (blocks : List BlockSetup) :
    (pairsOf blocks).map Prod.fst = blocks.flatMap fun b => b.parts.flatMap fun p => p.1 := by
  unfold pairsOf
  rw [List.map_flatMap]
  apply List.flatMap_congr
  intro b _
  rw [List.map_flatMap]
  apply List.flatMap_congr
  intro p _
  rw [List.map_map]
  exact List.map_id _

theorem flatMap_sum {α : Type} (l : List α) (f : α → List ℝ) :
    (l.flatMap f).sum = (l.map fun a => (f a).sum).sum := by
  induction l with
  | nil => rfl
  | cons a l ih => rw [List.flatMap_cons, List.sum_append, ih, List.map_cons, List.sum_cons]

theorem contributions_sum {blocks : List BlockSetup} (hp : Partitioned blocks)
    (hall : ∀ b ∈ blocks, b.crit ≠ none) (g : Nat) :
    (contributions (blocks.map initialField) g).sum =
      ((pairsOf blocks).map fun e => if e.1 = g then e.2 else 0).sum := by
  obtain ⟨hnd, hps⟩ := hp
  have hown : ∀ b ∈ blocks, ∀ p ∈ b.parts, p.1.Nodup := by
    intro b hb p hpp
    exact (List.nodup_flatMap.1 ((List.nodup_flatMap.1 hnd).1 b hb)).1 p hpp
  unfold contributions pairsOf
  rw [List.flatMap_map, flatMap_sum, List.map_flatMap, flatMap_sum]
  congr 1
  apply List.map_congr_left
  intro b hb
  obtain ⟨c, hc⟩ := Option.ne_none_iff_exists'.1 (hall b hb)
  simp only [initialField, hc, Option.map_some, Option.getD_some]
  rw [List.flatMap_map, flatMap_sum, List.map_flatMap, flatMap_sum]
  congr 1
  apply List.map_congr_left
  intro p hpp
  exact part_sum (hps b hb p hpp).1 (hps b hb p hpp).2 (hown b hb p hpp) g

theorem contributions_owner {blocks : List BlockSetup} (hp : Partitioned blocks)
    (hall : ∀ b ∈ blocks, b.crit ≠ none) {g : Nat} {c : ℝ} (hg : CriticalOf blocks g c) :
    (contributions (blocks.map initialField) g).sum = c := by
  rw [contributions_sum hp hall]
  apply sum_single
  · rw [pairsOf_fst]
    exact hp.1
  · obtain ⟨b, hb, hc, p, hpp, hgp⟩ := hg
    exact List.mem_flatMap.2 ⟨b, hb, List.mem_flatMap.2 ⟨p, hpp, List.mem_map.2 ⟨g, hgp, by rw [hc]; rfl⟩⟩⟩

end Verif.Damage
