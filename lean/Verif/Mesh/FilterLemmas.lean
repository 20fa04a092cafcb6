import Verif.Mesh.FilterModel
import Verif.Neigh.Blocks

/-! Lemmas for C125. -/

namespace Verif.Mesh

open Verif Verif.Neigh

/-- The neighbors in the same block. -/
def sameBlock (ids : List Int) (i : Nat) (ns : List Nat) : List Nat := ns.filter fun j => ids[j]? = ids[i]?

theorem bondingMatrix_eq {n : Nat} {a b : Int} (ha : 1 ≤ a ∧ a ≤ n) (hb : 1 ≤ b ∧ b ≤ n) :
    bondingMatrix n (a - 1) (b - 1) = .ok (decide (b = a)) := by
  rw [bondingMatrix, if_pos (by omega)]
  congr 1
  rw [decide_eq_decide]
  omega

theorem keepBonded_eq {n : Nat} {ids : List Int} (hids : ∀ c ∈ ids, 1 ≤ c ∧ c ≤ (n : Int)) {i : Nat} {b : Int}
    (hi : ids[i]? = some b) (ns : List Nat) :
    ∀ (pre rest : List Nat) (pos : Nat), pos = pre.length → (∀ j ∈ ns, j < ids.length) →
      keepBonded n ids b (pre ++ (ns ++ rest)) pos ns.length = .ok (sameBlock ids i ns) := by
  induction ns with
  | nil => intros; rfl
  | cons j ns ih =>
    intro pre rest pos hpos hlt
    have hj := hlt j List.mem_cons_self
    have hc := List.getElem?_eq_getElem hj
    have h1 := ih (pre ++ [j]) rest (pos + 1) (by simp [hpos]) fun k hk => hlt k (List.mem_cons_of_mem _ hk)
    rw [List.append_assoc, List.singleton_append] at h1
    rw [List.length_cons, keepBonded, List.cons_append, readAt_mid _ _ _ _ hpos]
    simp only
    rw [readAt_eq_ok.2 hc]
    simp only
    rw [bondingMatrix_eq (hids b (List.mem_of_getElem? hi)) (hids _ (List.getElem_mem hj))]
    simp only
    rw [h1]
    simp only [sameBlock, List.filter_cons, hc, hi, Option.some.injEq]

/-- The lists of a processor with only the neighbors in the same block; `i` is the number of the first point. -/
def sameBlocks (ids : List Int) : Nat → List (List Nat) → List (List Nat)
  | _, [] => []
  | i, ns :: nbs => sameBlock ids i ns :: sameBlocks ids (i + 1) nbs

theorem sameBlocks_length (ids : List Int) (i : Nat) (nbs : List (List Nat)) :
    (sameBlocks ids i nbs).length = nbs.length := by
  induction nbs generalizing i with
  | nil => rfl
  | cons ns nbs ih => rw [sameBlocks, List.length_cons, List.length_cons, ih]

theorem sameBlocks_get (ids : List Int) (i : Nat) (nbs : List (List Nat)) (k : Nat) :
    (sameBlocks ids i nbs)[k]? = (nbs[k]?).map (sameBlock ids (i + k)) := by
  induction nbs generalizing i k with
  | nil => rfl
  | cons ns nbs ih =>
    rw [sameBlocks]
    cases k with
    | zero => rfl
    | succ k => rw [List.getElem?_cons_succ, ih, List.getElem?_cons_succ]; congr 2; omega

theorem filterLoop_eq {n : Nat} {ids : List Int} (hids : ∀ c ∈ ids, 1 ≤ c ∧ c ≤ (n : Int))
    (nbs : List (List Nat)) :
    ∀ (pre : List Nat) (i pos out : Nat), pos = pre.length → i + nbs.length ≤ ids.length →
      (∀ ns ∈ nbs, ∀ j ∈ ns, j < ids.length) →
      filterLoop n ids (pre ++ encode nbs) nbs.length i pos out =
        .ok (encode (sameBlocks ids i nbs), offsetsFrom out (sameBlocks ids i nbs)) := by
  induction nbs with
  | nil => intros; rfl
  | cons ns nbs ih =>
    intro pre i pos out hpos hlen hlt
    rw [List.length_cons] at hlen
    have hi := List.getElem?_eq_getElem (l := ids) (i := i) (by omega)
    have h1 := keepBonded_eq hids hi ns (pre ++ [ns.length]) (encode nbs) (pos + 1) (by simp [hpos])
      (hlt ns List.mem_cons_self)
    have h2 := ih (pre ++ ns.length :: ns) (i + 1) (pos + 1 + ns.length)
      (out + 1 + (sameBlock ids i ns).length) (by simp [hpos]; omega) (by omega)
      fun ms hms => hlt ms (List.mem_cons_of_mem _ hms)
    rw [List.append_assoc, List.singleton_append] at h1
    rw [List.append_assoc, List.cons_append] at h2
    rw [List.length_cons, filterLoop, readAt_eq_ok.2 hi]
    simp only
    rw [encode_cons, readAt_mid _ _ _ _ hpos]
    simp only
    rw [h1]
    simp only
    rw [h2]
    simp only [sameBlocks, encode_cons, offsetsFrom]

theorem pointers_eq (nbs : List (List Nat)) : ∀ (pre : List Nat) (pos : Nat), pos = pre.length →
    pointers (pre ++ encode nbs) nbs.length pos = .ok (offsetsFrom pos nbs) := by
  induction nbs with
  | nil => intros; rfl
  | cons ns nbs ih =>
    intro pre pos hpos
    have h := ih (pre ++ ns.length :: ns) (pos + 1 + ns.length) (by simp [hpos]; omega)
    rw [List.append_assoc, List.cons_append] at h
    rw [List.length_cons, pointers, encode_cons, readAt_mid _ _ _ _ hpos]
    simp only
    rw [h]
    simp only [offsetsFrom]

/-! ### Block ids outside the matrix -/

theorem bondingMatrix_ub {n : Nat} {a b : Int} (ha : ¬ (1 ≤ a ∧ a ≤ n)) :
    bondingMatrix n (a - 1) (b - 1) = .ub := by
  rw [bondingMatrix, if_neg (by omega)]

theorem readAt_total {α : Type} (l : List α) (i : Nat) : readAt l i = .ub ∨ ∃ x, readAt l i = .ok x := by
  unfold readAt
  cases l[i]? with
  | none => exact Or.inl rfl
  | some x => exact Or.inr ⟨x, rfl⟩

theorem keepBonded_ub {n : Nat} {ids : List Int} {b : Int} (hb : ¬ (1 ≤ b ∧ b ≤ n)) (l : List Nat)
    (pos k : Nat) : keepBonded n ids b l pos (k + 1) = .ub := by
  rw [keepBonded]
  rcases readAt_total l pos with h | ⟨j, h⟩
  · rw [h]
  · rw [h]
    simp only
    rcases readAt_total ids j with h' | ⟨c, h'⟩
    · rw [h']
    · rw [h']
      simp only
      rw [bondingMatrix_ub hb]

theorem keepBonded_total (n : Nat) (ids : List Int) (b : Int) (l : List Nat) (k : Nat) :
    ∀ pos, keepBonded n ids b l pos k = .ub ∨ ∃ js, keepBonded n ids b l pos k = .ok js := by
  induction k with
  | zero => intro pos; exact Or.inr ⟨[], rfl⟩
  | succ k ih =>
    intro pos
    rw [keepBonded]
    rcases readAt_total l pos with h | ⟨j, h⟩
    · rw [h]; exact Or.inl rfl
    · rw [h]
      simp only
      rcases readAt_total ids j with h' | ⟨c, h'⟩
      · rw [h']; exact Or.inl rfl
      · rw [h']
        simp only
        unfold bondingMatrix
        by_cases hm : 0 ≤ b - 1 ∧ b - 1 < (n : Int) ∧ 0 ≤ c - 1 ∧ c - 1 < (n : Int)
        · rw [if_pos hm]
          simp only
          rcases ih (pos + 1) with h2 | ⟨js, h2⟩
          · rw [h2]; exact Or.inl rfl
          · rw [h2]; exact Or.inr ⟨_, rfl⟩
        · rw [if_neg hm]; exact Or.inl rfl

theorem filterLoop_ub {n : Nat} {ids : List Int} (nbs : List (List Nat)) :
    ∀ (pre : List Nat) (i pos out : Nat), pos = pre.length → ∀ (k : Nat) (b : Int) (ns : List Nat),
      nbs[k]? = some ns → ns ≠ [] → ids[i + k]? = some b → ¬ (1 ≤ b ∧ b ≤ n) →
      filterLoop n ids (pre ++ encode nbs) nbs.length i pos out = .ub := by
  induction nbs with
  | nil => intro pre i pos out _ k b ns hk; simp at hk
  | cons ms nbs ih =>
    intro pre i pos out hpos k b ns hk hne hb hout
    rw [List.length_cons, filterLoop]
    rcases readAt_total ids i with h | ⟨a, h⟩
    · rw [h]
    · rw [h]
      simp only
      rw [encode_cons, readAt_mid _ _ _ _ hpos]
      simp only
      cases k with
      | zero =>
        rw [List.getElem?_cons_zero] at hk
        injection hk with hk
        subst hk
        rw [readAt_eq_ok] at h
        rw [Nat.add_zero, h] at hb
        injection hb with hb
        subst hb
        obtain ⟨j, js, rfl⟩ := List.exists_cons_of_ne_nil hne
        rw [List.length_cons, keepBonded_ub hout]
      | succ k =>
        rw [List.getElem?_cons_succ] at hk
        rcases keepBonded_total n ids a (pre ++ ms.length :: (ms ++ encode nbs)) ms.length (pos + 1) with
          h2 | ⟨js, h2⟩
        · rw [h2]
        · rw [h2]
          simp only
          have h3 := ih (pre ++ ms.length :: ms) (i + 1) (pos + 1 + ms.length) (out + 1 + js.length)
            (by simp [hpos]; omega) k b ns hk hne (by rw [← hb]; congr 1; omega) hout
          rw [List.append_assoc, List.cons_append] at h3
          rw [h3]

end Verif.Mesh
