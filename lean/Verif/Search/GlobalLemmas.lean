import Verif.Search.GlobalModel
import Verif.Search.Props
import Verif.Neigh.RebalanceProps
import Verif.Redist.Import

/-! Lemmas for C121. -/

noncomputable section

namespace Verif.Search

open Verif Verif.Mech Verif.Filter Verif.Neigh Verif.Redist
open scoped Classical

/-- The lists found on all processors, collected in one function of the global id. -/
theorem lists_as_function (ranks : List (List Nat)) (hn : ranks.flatten.Nodup) (lss : Nat → List (List Nat)) :
    ∃ nb : Nat → List Nat, ∀ (r : Nat) (A : List Nat) (i g : Nat) (l : List Nat),
      ranks[r]? = some A → A[i]? = some g → (lss r)[i]? = some l → nb g = l := by
  refine ⟨fun g => if h : ∃ l, ∃ (r : Nat) (A : List Nat) (i : Nat),
      ranks[r]? = some A ∧ A[i]? = some g ∧ (lss r)[i]? = some l then h.choose else [], ?_⟩
  intro r A i g l hr hi hl
  have h : ∃ l, ∃ (r : Nat) (A : List Nat) (i : Nat),
      ranks[r]? = some A ∧ A[i]? = some g ∧ (lss r)[i]? = some l := ⟨l, r, A, i, hr, hi, hl⟩
  simp only
  rw [dif_pos h]
  obtain ⟨r', A', i', hr', hi', hl'⟩ := h.choose_spec
  have hrr := same_rank hn hr hr' (List.mem_of_getElem? hi) (List.mem_of_getElem? hi')
  subst hrr
  rw [hr] at hr'
  injection hr' with hAA
  subst hAA
  have hA : A.Nodup := (List.nodup_flatten.mp hn).1 A (List.mem_of_getElem? hr)
  have hii : i = i' := by
    obtain ⟨b1, e1⟩ := List.getElem?_eq_some_iff.mp hi
    obtain ⟨b2, e2⟩ := List.getElem?_eq_some_iff.mp hi'
    exact (hA.getElem_inj_iff (hi := b1) (hj := b2)).mp (e1.trans e2.symm)
  subst hii
  rw [hl] at hl'
  injection hl' with hl'
  exact hl'.symm

/-- The part of a processor that found the lists `ls` for its points `A`. -/
theorem searchPart_eq {Z : Zoltan} {x : Nat → V3} {h : Nat → ℝ} {balanced : List (List Nat)}
    {fs : List BondFilter} {r : Nat} {A : List Nat} {ls : List (List Nat)} (hr : balanced[r]? = some A)
    (hs : search Z x h balanced fs r = .ok ls) (hl : ls.length = A.length) :
    searchPart Z x h balanced fs r =
      .ok ⟨A, overlapOf A ls, encode (ls.map (·.map (overlapOf A ls).idxOf))⟩ := by
  have hA : balanced.getD r [] = A := by rw [List.getD_eq_getElem?_getD, hr]; rfl
  rw [searchPart, hs]
  simp only
  rw [hA, discretize_eq A ls hl]
  rfl

/-- Such a part holds the lists. -/
theorem part_holds (nb : Nat → List Nat) (A : List Nat) (ls : List (List Nat)) (hl : ls.length = A.length)
    (hnb : ∀ (i g : Nat) (l : List Nat), A[i]? = some g → ls[i]? = some l → nb g = l) :
    Holds nb ⟨A, overlapOf A ls, encode (ls.map (·.map (overlapOf A ls).idxOf))⟩ := by
  refine ⟨_, rfl, ?_⟩
  rw [List.forall₂_map_left_iff]
  show List.Forall₂ _ ls A
  rw [List.forall₂_iff_get]
  refine ⟨hl, ?_⟩
  intro i h1 h2
  simp only [List.get_eq_getElem]
  rw [hnb i A[i] ls[i] (List.getElem?_eq_getElem h2) (List.getElem?_eq_getElem h1), List.map_map]
  apply List.map_congr_left
  intro g hg
  exact readAt_eq_ok.1 (readAt_idxOf _ _ (mem_overlapOf (List.getElem_mem h1) hg))

/-- With filters given or not, the effective filters exclude the point itself. -/
theorem effective_excludes {fs : List BondFilter} (h : ExcludesSelf fs) : ExcludesSelf (effectiveFilters fs) :=
  Or.inr (effective_self h)

theorem effective_nondegenerate {fs : List BondFilter} (h : ∀ f ∈ fs, NonDegenerate f.shape) :
    ∀ f ∈ effectiveFilters fs, NonDegenerate f.shape := by
  intro f hf
  unfold effectiveFilters at hf
  split at hf
  · simp only [List.mem_singleton] at hf
    rw [hf]
    trivial
  · exact h f hf

theorem addedRadius_eq (h : Nat → ℝ) (a : ℝ) (g : Nat) : addedRadius h a g = h g + a := by
  unfold addedRadius
  split
  · rfl
  · next h0 =>
    have : a = 0 := not_not.mp h0
    rw [this, add_zero]

end Verif.Search
