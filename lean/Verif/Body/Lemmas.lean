import Verif.Body.Spec
import Verif.Mech.Props
import Verif.Assembly.Props

/-!
# The internal force of a body: helper lemmas
-/

noncomputable section

namespace Verif.Body

open Verif Verif.Mech Verif.Neigh Verif.Assembly

/-- Sum of a family of additive maps over all entries of a vector. -/
def total (φ : Nat → V3 →+ V3) (f : Assembly.Dist V3) : V3 :=
  (f.map fun part => (part.map fun e => φ e.1 e.2).sum).sum

theorem total_flatten (φ : Nat → V3 →+ V3) (f : Assembly.Dist V3) :
    total φ f = (f.flatten.map fun e => φ e.1 e.2).sum := by
  unfold total
  induction f with
  | nil => rfl
  | cons a f ih =>
    rw [List.map_cons, List.sum_cons, ih, List.flatten_cons, List.map_append, List.sum_append]

theorem sum_single (φ : Nat → V3 →+ V3) (ids : List Nat) (hn : ids.Nodup) (e : Nat × V3)
    (he : e.1 ∈ ids) :
    (ids.map fun g => φ g (if e.1 = g then e.2 else 0)).sum = φ e.1 e.2 := by
  induction ids with
  | nil => exact absurd he (by simp)
  | cons g ids ih =>
    rw [List.nodup_cons] at hn
    rw [List.map_cons, List.sum_cons]
    by_cases h : e.1 = g
    · have hz : (ids.map fun g => φ g (if e.1 = g then e.2 else 0)) = ids.map fun _ => (0 : V3) := by
        refine List.map_congr_left fun g' hg' => ?_
        rw [if_neg, map_zero]
        intro h'; rw [h] at h'; exact hn.1 (h' ▸ hg')
      rw [hz, if_pos h, ← h]
      simp
    · rw [if_neg h, map_zero, zero_add]
      exact ih hn.2 ((List.mem_cons.mp he).resolve_left h)

/-- Summing by id or by entry. -/
theorem sum_by_id (φ : Nat → V3 →+ V3) (ids : List Nat) (hn : ids.Nodup) (all : List (Nat × V3))
    (h : ∀ e ∈ all, e.1 ∈ ids) :
    (ids.map fun g => φ g ((all.filter fun e => e.1 = g).map Prod.snd).sum).sum =
      (all.map fun e => φ e.1 e.2).sum := by
  induction all with
  | nil => simp
  | cons e all ih =>
    have h1 : ∀ g, φ g (((e :: all).filter fun e => e.1 = g).map Prod.snd).sum =
        φ g (if e.1 = g then e.2 else 0) + φ g ((all.filter fun e => e.1 = g).map Prod.snd).sum := by
      intro g
      rw [← map_add]
      congr 1
      by_cases hg : e.1 = g
      · rw [List.filter_cons_of_pos (by simpa using hg), if_pos hg, List.map_cons, List.sum_cons]
      · rw [List.filter_cons_of_neg (by simpa using hg), if_neg hg, zero_add]
    rw [List.map_congr_left fun g _ => h1 g, List.sum_map_add, sum_single φ ids hn e
      (h e (List.mem_cons_self ..)), ih fun e' he' => h e' (List.mem_cons_of_mem _ he'),
      List.map_cons, List.sum_cons]

/-- All entries of all blocks. -/
def entries (blocks : List BodyBlock) : List (Nat × V3) :=
  blocks.flatMap fun b => b.pieces.flatMap Piece.part

theorem contributions_entries (blocks : List BodyBlock) (g : Nat) :
    contributions (blocks.map BodyBlock.field) g =
      ((entries blocks).filter fun e => e.1 = g).map Prod.snd := by
  unfold contributions entries
  rw [List.flatMap_map, List.filter_flatMap, List.map_flatMap]
  congr 1
  funext b
  show ((b.pieces.map Piece.part).flatMap _) = _
  rw [List.flatMap_map, List.filter_flatMap, List.map_flatMap]

theorem internalForce_entries (global : Assembly.Dist V3) (blocks : List BodyBlock)
    (h : Decomposition global blocks) :
    internalForce global blocks = global.map fun part => part.map fun e =>
      (e.1, (contributions (blocks.map BodyBlock.field) e.1).sum) := by
  unfold internalForce
  rw [gather_shift]
  unfold shift zeroOut
  apply List.ext_getElem
  · simp
  · intro i h1 h2
    simp only [List.getElem_mapIdx, List.getElem_map, List.map_map]
    refine List.map_congr_left fun e he => ?_
    have hi : i < global.length := by simpa using h2
    have ho : Owns global i e.1 :=
      ⟨global[i], List.getElem?_eq_getElem hi, List.mem_map_of_mem he⟩
    have hs := sum_contributions (blocks.map BodyBlock.field) global i e.1 (by
      intro b hb
      obtain ⟨b', hb', rfl⟩ := List.mem_map.mp hb
      exact h.picks b' hb') ho
    refine Prod.ext rfl ?_
    show (0 : V3) + _ = _
    rw [zero_add]
    rw [List.map_map] at hs
    exact hs

theorem total_internal (φ : Nat → V3 →+ V3) (global : Assembly.Dist V3) (blocks : List BodyBlock)
    (h : Decomposition global blocks) :
    total φ (internalForce global blocks) =
      (blocks.map fun b => (b.pieces.map fun p => (p.part.map fun e => φ e.1 e.2).sum).sum).sum := by
  rw [internalForce_entries global blocks h, total_flatten]
  have e1 : ((global.map fun part => part.map fun e =>
      (e.1, (contributions (blocks.map BodyBlock.field) e.1).sum)).flatten.map
        fun e => φ e.1 e.2) =
      (global.flatMap fun part => part.map Prod.fst).map fun g =>
        φ g (((entries blocks).filter fun e => e.1 = g).map Prod.snd).sum := by
    rw [← List.flatMap_def, List.map_flatMap, List.map_flatMap]
    congr 1
    funext part
    rw [List.map_map, List.map_map]
    refine List.map_congr_left fun e _ => ?_
    simp only [Function.comp_def]
    rw [contributions_entries]
  rw [e1, sum_by_id φ _ h.once]
  · unfold entries
    clear e1 h
    induction blocks with
    | nil => rfl
    | cons b bs ih =>
      rw [List.flatMap_cons, List.map_append, List.sum_append, ih, List.map_cons, List.sum_cons]
      congr 1
      induction b.pieces with
      | nil => rfl
      | cons p ps ih2 =>
        rw [List.flatMap_cons, List.map_append, List.sum_append, ih2, List.map_cons, List.sum_cons]
  · intro e he
    obtain ⟨b, hb, he⟩ := List.mem_flatMap.mp he
    obtain ⟨p, hp, he⟩ := List.mem_flatMap.mp he
    unfold Piece.part at he
    obtain ⟨⟨g, k⟩, hgk, rfl⟩ := List.mem_map.mp he
    have hg : g ∈ p.gids := (List.mem_zipIdx hgk).2.2 ▸ List.getElem_mem _
    obtain ⟨q, part, h1, h2⟩ := h.owned b hb p hp g hg
    exact List.mem_flatMap.mpr ⟨part, List.mem_of_getElem? h1, h2⟩

theorem getD_of_lt (l : List Nat) {k : Nat} (h : k < l.length) : l.getD k 0 = l[k] := by
  rw [List.getD_eq_getElem?_getD, List.getElem?_eq_getElem h]; rfl

theorem getD_of_lt' (l : List (Nat × V3)) {k : Nat} (h : k < l.length) : l.getD k (0, 0) = l[k] := by
  rw [List.getD_eq_getElem?_getD, List.getElem?_eq_getElem h]; rfl

theorem resultant_flatten (V : Nat → ℝ) (f : Assembly.Dist V3) :
    resultant V f = (f.flatten.map fun e => V e.1 • e.2).sum := by
  unfold resultant
  induction f with
  | nil => rfl
  | cons a f ih =>
    rw [List.map_cons, List.sum_cons, ih, List.flatten_cons, List.map_append, List.sum_append]

theorem sum_list_range (ψ : Nat × V3 → V3) (l : List (Nat × V3)) (c : Fin 3) :
    (l.map ψ).sum c = ∑ k ∈ Finset.range l.length, ψ (l.getD k (0, 0)) c := by
  induction l using List.reverseRecOn with
  | nil => rfl
  | append_singleton l g ih =>
    rw [List.map_append, List.sum_append, List.length_append, List.length_singleton,
      Finset.sum_range_succ, Pi.add_apply, ih]
    congr 1
    · refine Finset.sum_congr rfl fun k hk => ?_
      have := Finset.mem_range.mp hk
      rw [List.getD_eq_getElem?_getD, List.getD_eq_getElem?_getD, List.getElem?_append_left this]
    · simp

theorem sum_zipIdx (ψ : Nat → V3 → V3) (F : Nat → V3) (gids : List Nat) :
    ((gids.zipIdx.map fun e => ((e.1, F e.2) : Nat × V3)).map fun e => ψ e.1 e.2).sum =
      ∑ k ∈ Finset.range gids.length, ψ (gids.getD k 0) (F k) := by
  induction gids using List.reverseRecOn with
  | nil => rfl
  | append_singleton l g ih =>
    rw [List.zipIdx_append, List.map_append, List.map_append, List.sum_append, ih,
      List.length_append, List.length_singleton, Finset.sum_range_succ]
    congr 1
    · refine Finset.sum_congr rfl fun k hk => ?_
      have := Finset.mem_range.mp hk
      rw [List.getD_eq_getElem?_getD, List.getD_eq_getElem?_getD, List.getElem?_append_left this]
    · simp

theorem kernel_force {C : Config} {nbs : List (List Nat)} {F : Nat → V3} {N : Nat}
    (hN : Within nbs N) (h : KernelForce C nbs F) :
    totalForce C.v F N = 0 ∧ totalMoment C.y C.v F N = 0 := by
  cases h with
  | elastic K mu th theta F h =>
    exact ⟨C17_elastic C K mu nbs th theta _ N hN h, C18_elastic C K mu nbs th theta _ N hN h⟩
  | bondBased K planar F h =>
    exact ⟨C17_bondBased C K planar nbs _ N hN h, C18_bondBased C K planar nbs _ N hN h⟩
  | plastic P th edpN lambdaN theta s s' h =>
    exact ⟨C17_plastic C P nbs th edpN lambdaN theta s s' N hN h,
      C18_plastic C P nbs th edpN lambdaN theta s s' N hN h⟩
  | visco P dt yN thetaN edbN th edb theta edb' F h =>
    exact ⟨C17_visco C P dt yN thetaN edbN th edb theta edb' nbs _ N hN h,
      C18_visco C P dt yN thetaN edbN th edb theta edb' nbs _ N hN h⟩

end Verif.Body
