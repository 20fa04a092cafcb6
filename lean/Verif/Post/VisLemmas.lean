import Verif.Post.Spec
import Verif.Mech.Lemmas
import Mathlib.Data.List.Sort

/-!
# Lemmas on the file of bonds
-/

noncomputable section

namespace Verif.Post

open Verif Verif.Neigh Verif.Mech
open scoped Classical

/-! ### Bonds -/

theorem pairs_from (ids : List Int) (nbs : List (List Nat)) (p b : Nat) :
    (bondsFrom nbs p b).map (fun e => (gid ids e.i, gid ids e.j)) =
      (List.range nbs.length).flatMap fun k => (nbs.getD k []).map fun q => (gid ids (p + k), gid ids q) := by
  induction nbs generalizing p b with
  | nil => rfl
  | cons ns nbs ih =>
    rw [bondsFrom, List.map_append, ih, List.length_cons, List.range_succ_eq_map, List.flatMap_cons, List.flatMap_map]
    congr 1
    · simp only [pointBonds, List.map_map, List.getD_cons_zero, Nat.add_zero]
      have : ∀ k, (ns.zipIdx k).map ((fun e : Bond => (gid ids e.i, gid ids e.j)) ∘ fun x => ⟨p, x.1, x.2⟩) =
          ns.map fun q => (gid ids p, gid ids q) := by
        induction ns with
        | nil => intro k; rfl
        | cons n ns ih => intro k; rw [List.zipIdx_cons, List.map_cons, List.map_cons, ih]; rfl
      exact this b
    · apply List.flatMap_congr
      intro k _
      simp only [List.getD_cons_succ]
      have : p + 1 + k = p + (k + 1) := by omega
      rw [this]

theorem blockPairs_eq {node : Option Int} {b : VisBlock} {nbs : List (List Nat)} {X : Int → V3} (h : b.Sound nbs X) :
    blockPairs node b = .ok ((pairsOf b.ids nbs).filter fun e => storeData node e.1) := by
  rw [blockPairs, h.1, h.2.1, visited_encode]
  simp only [Outcome.ok_bind]
  congr 1
  have := pairs_from b.ids nbs 0 0
  simp only [Nat.zero_add] at this
  rw [pairsOf, ← this, List.filter_map]
  rfl

/-- All bonds of the blocks. -/
def allPairs (bs : List VisBlock) (nss : List (List (List Nat))) : List (Int × Int) :=
  (bs.zip nss).flatMap fun p => pairsOf p.1.ids p.2

theorem connectivity_eq {node : Option Int} {bs : List VisBlock} {nss : List (List (List Nat))} {X : Int → V3}
    (h : List.Forall₂ (fun b n => b.Sound n X) bs nss) :
    connectivity node bs = .ok ((allPairs bs nss).filter fun e => storeData node e.1) := by
  induction h with
  | nil => rfl
  | cons h1 _ ih =>
    rw [connectivity, blockPairs_eq h1, ih]
    simp only [Outcome.ok_bind, allPairs, List.zip_cons_cons, List.flatMap_cons, List.filter_append]

theorem gid_mem {ids : List Int} {i : Nat} (h : i < ids.length) : ids[i]? = some (gid ids i) := by
  rw [gid, List.getD_eq_getElem?_getD, List.getElem?_eq_getElem h]
  rfl

theorem mem_pairsOf {b : VisBlock} {nbs : List (List Nat)} {X : Int → V3} (h : b.Sound nbs X) {e : Int × Int}
    (he : e ∈ pairsOf b.ids nbs) : e.1 ∈ b.ids ∧ e.2 ∈ b.ids := by
  obtain ⟨_, _, h3, h4, _⟩ := h
  obtain ⟨p, hp, he⟩ := List.mem_flatMap.mp he
  obtain ⟨q, hq, rfl⟩ := List.mem_map.mp he
  have hp' := List.mem_range.mp hp
  have hmem : nbs.getD p [] ∈ nbs := by
    rw [List.getD_eq_getElem?_getD, List.getElem?_eq_getElem hp']
    exact List.getElem_mem hp'
  exact ⟨List.mem_of_getElem? (gid_mem (by omega)), List.mem_of_getElem? (gid_mem (h4 _ hmem q hq))⟩

/-! ### Coordinates -/

theorem recordBlock_eq {b : VisBlock} {nbs : List (List Nat)} {X : Int → V3} (h : b.Sound nbs X)
    (m : Int → Option V3) (hm : ∀ g, m g = none ∨ m g = some (X g)) :
    (∀ g, recordBlock m b g = none ∨ recordBlock m b g = some (X g)) ∧
    (∀ g ∈ b.ids, recordBlock m b g = some (X g)) ∧ ∀ g, m g = some (X g) → recordBlock m b g = some (X g) := by
  obtain ⟨_, _, _, _, h5⟩ := h
  have key : ∀ (l : List Nat) (m : Int → Option V3), (∀ i ∈ l, i < b.ids.length) →
      (∀ g, m g = none ∨ m g = some (X g)) →
      let r := l.foldl (fun m i => Function.update m (gid b.ids i) (some (b.x i))) m
      (∀ g, r g = none ∨ r g = some (X g)) ∧ (∀ i ∈ l, r (gid b.ids i) = some (X (gid b.ids i))) ∧
        ∀ g, m g = some (X g) → r g = some (X g) := by
    intro l
    induction l with
    | nil => intro m _ hm; exact ⟨hm, by simp, fun g h => h⟩
    | cons i l ih =>
      intro m hl hm
      have hx : b.x i = X (gid b.ids i) := h5 i _ (gid_mem (hl i List.mem_cons_self))
      have hup : ∀ g, Function.update m (gid b.ids i) (some (b.x i)) g = if g = gid b.ids i then some (X g) else m g := by
        intro g
        by_cases e : g = gid b.ids i
        · rw [if_pos e, e, Function.update_self, hx]
        · rw [if_neg e, Function.update_of_ne e]
      obtain ⟨k1, k2, k3⟩ := ih (Function.update m (gid b.ids i) (some (b.x i)))
        (fun j hj => hl j (List.mem_cons_of_mem _ hj)) (fun g => by
          rw [hup g]
          split
          · exact Or.inr rfl
          · exact hm g)
      refine ⟨k1, ?_, fun g hg => k3 g ?_⟩
      · intro j hj
        rcases List.mem_cons.mp hj with rfl | hj
        · exact k3 _ (by rw [hup, if_pos rfl])
        · exact k2 j hj
      · rw [hup]
        split
        · rfl
        · exact hg
  obtain ⟨k1, k2, k3⟩ := key (List.range b.ids.length) m (fun i hi => List.mem_range.mp hi) hm
  refine ⟨k1, fun g hg => ?_, k3⟩
  obtain ⟨i, hi, rfl⟩ := List.getElem_of_mem hg
  have := k2 i (List.mem_range.mpr hi)
  have e : gid b.ids i = b.ids[i] := by
    have := gid_mem hi
    rw [List.getElem?_eq_getElem hi] at this
    exact (Option.some.inj this).symm
  rw [e] at this
  exact this

theorem recorded_eq {bs : List VisBlock} {nss : List (List (List Nat))} {X : Int → V3}
    (h : List.Forall₂ (fun b n => b.Sound n X) bs nss) {b : VisBlock} (hb : b ∈ bs) {g : Int} (hg : g ∈ b.ids) :
    recorded bs g = some (X g) := by
  have key : ∀ (m : Int → Option V3), (∀ g, m g = none ∨ m g = some (X g)) →
      (∀ b ∈ bs, ∀ g ∈ b.ids, bs.foldl recordBlock m g = some (X g)) ∧
      ∀ g, m g = some (X g) → bs.foldl recordBlock m g = some (X g) := by
    clear hb hg
    induction h with
    | nil => intro m _; exact ⟨by simp, fun g h => h⟩
    | cons h1 _ ih =>
      intro m hm
      obtain ⟨k1, k2, k3⟩ := recordBlock_eq h1 m hm
      obtain ⟨i1, i2⟩ := ih _ k1
      refine ⟨fun b hb g hg => ?_, fun g hg => i2 g (k3 g hg)⟩
      rcases List.mem_cons.mp hb with rfl | hb
      · exact i2 g (k2 g hg)
      · exact i1 b hb g hg
  exact (key (fun _ => none) fun _ => Or.inl rfl).1 b hb g hg

/-! ### Writing -/

theorem mem_nodeIds {c : List (Int × Int)} {g : Int} : g ∈ nodeIds c ↔ ∃ e ∈ c, g = e.1 ∨ g = e.2 := by
  simp only [nodeIds, List.mem_dedup, List.mem_insertionSort, List.mem_flatMap, List.mem_cons, List.not_mem_nil,
    or_false]

theorem sorted_nodeIds (c : List (Int × Int)) : (nodeIds c).Pairwise (· < ·) := by
  have h1 : ((c.flatMap fun e => [e.1, e.2]).insertionSort (· ≤ ·)).Pairwise (· ≤ ·) := List.pairwise_insertionSort _ _
  have h2 : (nodeIds c).Pairwise (· ≤ ·) := h1.sublist (List.dedup_sublist _)
  have h3 : (nodeIds c).Nodup := List.nodup_dedup _
  exact (h2.and h3).imp (fun h => lt_of_le_of_ne h.1 h.2)

/-- The three numbers of a point. -/
def pointToks (x : V3) : List Tok := [.num (x 0), .num (x 1), .num (x 2)]

theorem writePoints_eq {coords : Int → Option V3} {X : Int → V3} (gs : List Int)
    (h : ∀ g ∈ gs, coords g = some (X g)) (hn : gs.Nodup) (k : Nat) (m : Int → Option Nat) :
    ∃ m', writePoints coords k gs m = .ok (gs.flatMap fun g => pointToks (X g), m') ∧
      (∀ g ∈ gs, m' g = some (k + gs.idxOf g)) ∧ ∀ g, g ∉ gs → m' g = m g := by
  induction gs generalizing k m with
  | nil => exact ⟨m, rfl, by simp, fun _ _ => rfl⟩
  | cons g gs ih =>
    rw [List.nodup_cons] at hn
    obtain ⟨m', h1, h2, h3⟩ := ih (fun g hg => h g (List.mem_cons_of_mem _ hg)) hn.2 (k + 1)
      (Function.update m g (some k))
    refine ⟨m', ?_, fun q hq => ?_, fun q hq => ?_⟩
    · rw [writePoints, h g List.mem_cons_self]
      simp only [h1, Outcome.ok_bind, List.flatMap_cons, pointToks, List.cons_append, List.nil_append]
    · by_cases e : q = g
      · subst e
        rw [h3 q hn.1, Function.update_self, List.idxOf_cons_self, Nat.add_zero]
      · rw [h2 q ((List.mem_cons.mp hq).resolve_left e), List.idxOf_cons_ne _ (Ne.symm e)]
        congr 1; omega
    · rw [h3 q fun hh => hq (List.mem_cons_of_mem _ hh), Function.update_of_ne fun e => hq (by rw [e]; exact List.mem_cons_self)]

/-- The three numbers of a cell. -/
def cellToks (e : Nat × Nat) : List Tok := [.int 2, .int e.1, .int e.2]

theorem writeCells_eq {m : Int → Option Nat} {f : Int → Nat} (c : List (Int × Int))
    (h : ∀ e ∈ c, m e.1 = some (f e.1) ∧ m e.2 = some (f e.2)) :
    writeCells m c = .ok ((c.map fun e => (f e.1, f e.2)).flatMap cellToks) := by
  induction c with
  | nil => rfl
  | cons e c ih =>
    obtain ⟨h1, h2⟩ := h e List.mem_cons_self
    rw [writeCells, h1, h2]
    simp only [ih fun e he => h e (List.mem_cons_of_mem _ he), Outcome.ok_bind, List.map_cons, List.flatMap_cons, cellToks,
      List.cons_append, List.nil_append]

/-! ### Reading -/

theorem readPoints_toks (xs : List V3) (l : List Tok) :
    readPoints xs.length (xs.flatMap pointToks ++ l) = some (xs, l) := by
  induction xs with
  | nil => rfl
  | cons x xs ih =>
    simp only [List.length_cons, List.flatMap_cons, pointToks, List.cons_append, List.nil_append, readPoints]
    rw [ih]
    have : (![x 0, x 1, x 2] : V3) = x := by funext c; fin_cases c <;> rfl
    simp [this]

theorem readCells_toks (cs : List (Nat × Nat)) (l : List Tok) :
    readCells cs.length (cs.flatMap cellToks ++ l) = some (cs, l) := by
  induction cs with
  | nil => rfl
  | cons e cs ih =>
    simp only [List.length_cons, List.flatMap_cons, cellToks, List.cons_append, List.nil_append, readCells]
    rw [ih]
    simp

theorem readTypes_toks (n : Nat) : readTypes n (List.replicate n (.int 3)) = some () := by
  induction n with
  | zero => rfl
  | succ n ih => rw [List.replicate_succ, readTypes, ih]

theorem segments_eq {X : Int → V3} {gs : List Int} (c : List (Int × Int)) (h : ∀ e ∈ c, e.1 ∈ gs ∧ e.2 ∈ gs) :
    segments (gs.map X) (c.map fun e => (gs.idxOf e.1, gs.idxOf e.2)) = some (c.map fun e => (X e.1, X e.2)) := by
  have get : ∀ g ∈ gs, (gs.map X)[gs.idxOf g]? = some (X g) := by
    intro g hg
    rw [List.getElem?_map, List.getElem?_idxOf hg]
    rfl
  induction c with
  | nil => rfl
  | cons e c ih =>
    obtain ⟨h1, h2⟩ := h e List.mem_cons_self
    simp only [List.map_cons, segments]
    rw [get _ h1, get _ h2, ih fun e he => h e (List.mem_cons_of_mem _ he)]

end Verif.Post
