import Verif.Tangent.Spec
import Verif.Neigh.Lemmas
import Verif.BC.Lemmas
import Mathlib.Tactic.Ring

/-! Lemmas on the tangent matrices. -/

noncomputable section

namespace Verif.Tangent

open Verif Verif.Neigh Verif.Mech
open scoped Classical

/-! ### Neighborhoods -/

theorem neighborLists_mid (nbs : List (List Nat)) : ∀ (pre : List Nat) (pos : Nat), pos = pre.length →
    neighborLists (pre ++ encode nbs) nbs.length pos = .ok nbs := by
  induction nbs with
  | nil => intro pre pos _; rfl
  | cons ns nbs ih =>
    intro pre pos hp
    have e1 : pre ++ encode (ns :: nbs) = pre ++ ns.length :: (ns ++ encode nbs) := by rw [encode_cons]
    have e2 : pre ++ encode (ns :: nbs) = (pre ++ [ns.length]) ++ (ns ++ encode nbs) := by
      rw [encode_cons]; simp
    have e3 : pre ++ encode (ns :: nbs) = (pre ++ ns.length :: ns) ++ encode nbs := by
      rw [encode_cons]; simp
    simp only [List.length_cons, neighborLists]
    have h1 : readAt (pre ++ encode (ns :: nbs)) pos = .ok ns.length := by
      rw [e1]; exact readAt_mid _ _ _ _ hp
    have h2 : readIds (pre ++ encode (ns :: nbs)) (pos + 1) ns.length = .ok ns := by
      rw [e2]; exact readIds_mid _ _ _ _ _ (by simp [hp]) rfl
    have h3 : neighborLists (pre ++ encode (ns :: nbs)) nbs.length (pos + 1 + ns.length) = .ok nbs := by
      rw [e3]; exact ih _ _ (by simp [hp]; omega)
    rw [h1, Outcome.ok_bind, h2, Outcome.ok_bind, h3, Outcome.ok_bind]

theorem gidsOf_ok {overlap : List Nat} : ∀ {is : List Nat}, (∀ i ∈ is, i < overlap.length) →
    gidsOf overlap is = .ok (is.filterMap fun i => overlap[i]?)
  | [], _ => rfl
  | i :: is, h => by
    have hi := h i (List.mem_cons_self ..)
    simp only [gidsOf]
    rw [readAt_lt _ _ hi, Outcome.ok_bind, gidsOf_ok (fun j hj => h j (List.mem_cons_of_mem _ hj)),
      Outcome.ok_bind, List.filterMap_cons, List.getElem?_eq_getElem hi]

theorem hoodsFrom_ok {overlap : List Nat} : ∀ {nbs : List (List Nat)} (p : Nat),
    p + nbs.length ≤ overlap.length → (∀ ns ∈ nbs, ∀ j ∈ ns, j < overlap.length) →
    hoodsFrom overlap p nbs =
      .ok ((nbs.zipIdx p).map fun x => (x.2 :: x.1).filterMap fun i => overlap[i]?)
  | [], _, _, _ => rfl
  | ns :: nbs, p, hl, hn => by
    simp only [List.length_cons] at hl
    simp only [hoodsFrom]
    rw [gidsOf_ok, Outcome.ok_bind, hoodsFrom_ok (p + 1) (by omega)
      (fun ns h => hn ns (List.mem_cons_of_mem _ h)), Outcome.ok_bind, List.zipIdx_cons, List.map_cons]
    intro i hi
    rcases List.mem_cons.1 hi with rfl | hi
    · omega
    · exact hn ns (List.mem_cons_self ..) i hi

theorem Part.hoods_ok {P : Part} (h : P.Valid) : P.proc.hoods = .ok P.hoods := by
  unfold Proc.hoods
  have h1 : neighborLists P.proc.list P.proc.owned 0 = .ok P.nbs := by
    exact neighborLists_mid P.nbs [] 0 rfl
  rw [h1, Outcome.ok_bind]
  exact hoodsFrom_ok 0 (by rw [Nat.zero_add]; exact h.1) h.2

theorem mem_hood {P : Part} {q : Nat} {ns : List Nat} {I : Nat} :
    I ∈ P.hood q ns ↔ P.overlap[q]? = some I ∨ ∃ i ∈ ns, P.overlap[i]? = some I := by
  unfold Part.hood
  rw [List.mem_filterMap]
  constructor
  · rintro ⟨i, hi, e⟩
    rcases List.mem_cons.1 hi with rfl | hi
    · exact .inl e
    · exact .inr ⟨i, hi, e⟩
  · rintro (e | ⟨i, hi, e⟩)
    · exact ⟨q, List.mem_cons_self .., e⟩
    · exact ⟨i, List.mem_cons_of_mem _ hi, e⟩

theorem mem_hoods {P : Part} {h : List Nat} :
    h ∈ P.hoods ↔ ∃ (q : Nat) (ns : List Nat), P.nbs[q]? = some ns ∧ h = P.hood q ns := by
  unfold Part.hoods
  rw [List.mem_map]
  constructor
  · rintro ⟨⟨ns, q⟩, hx, e⟩
    exact ⟨q, ns, by simpa using List.mk_mem_zipIdx_iff_getElem?.1 hx, e.symm⟩
  · rintro ⟨q, ns, hq, e⟩
    exact ⟨(ns, q), List.mk_mem_zipIdx_iff_getElem?.2 (by simpa using hq), e.symm⟩

/-! ### Sparsity -/

theorem mem_dofIds {D : Nat} {gids : List Nat} {r : Nat} : r ∈ dofIds D gids ↔ 0 < D ∧ r / D ∈ gids := by
  unfold dofIds
  rw [List.mem_flatMap]
  constructor
  · rintro ⟨g, hg, hr⟩
    obtain ⟨d, hd, e⟩ := List.mem_map.1 hr
    rw [List.mem_range] at hd
    have hD : 0 < D := by omega
    refine ⟨hD, ?_⟩
    rw [← e, Nat.mul_add_div hD, Nat.div_eq_of_lt hd, Nat.add_zero]
    exact hg
  · rintro ⟨hD, hr⟩
    exact ⟨r / D, hr, List.mem_map.2 ⟨r % D, List.mem_range.2 (Nat.mod_lt _ hD), Nat.div_add_mod r D⟩⟩

theorem couple_row (js : List Nat) (i : Nat) : ∀ (R : Nat → Finset Nat) (r c : Nat),
    c ∈ js.foldl (fun R j => Function.update R i (insert j (R i))) R r ↔
      c ∈ R r ∨ (r = i ∧ c ∈ js) := by
  induction js with
  | nil => intro R r c; simp
  | cons j js ih =>
    intro R r c
    rw [List.foldl_cons, ih]
    by_cases h : r = i
    · subst h
      simp [or_assoc, or_left_comm]
    · rw [Function.update_of_ne h]
      simp [h]

theorem mem_couple {R : Nat → Finset Nat} {idx : List Nat} {r c : Nat} :
    c ∈ couple R idx r ↔ c ∈ R r ∨ (r ∈ idx ∧ c ∈ idx) := by
  unfold couple
  have : ∀ (is : List Nat) (R : Nat → Finset Nat),
      c ∈ is.foldl (fun R i => idx.foldl (fun R j => Function.update R i (insert j (R i))) R) R r ↔
        c ∈ R r ∨ (r ∈ is ∧ c ∈ idx) := by
    intro is
    induction is with
    | nil => intro R; simp
    | cons i is ih =>
      intro R
      rw [List.foldl_cons, ih, couple_row, List.mem_cons]
      tauto
  exact this idx R

theorem mem_rowEntries {D : Nat} {hoods : List (List Nat)} {r c : Nat} :
    c ∈ rowEntries D hoods r ↔ ∃ h ∈ hoods, r ∈ dofIds D h ∧ c ∈ dofIds D h := by
  unfold rowEntries
  have : ∀ (hs : List (List Nat)) (R : Nat → Finset Nat),
      c ∈ hs.foldl (fun R g => couple R (dofIds D g)) R r ↔
        c ∈ R r ∨ ∃ h ∈ hs, r ∈ dofIds D h ∧ c ∈ dofIds D h := by
    intro hs
    induction hs with
    | nil => intro R; simp
    | cons h hs ih =>
      intro R
      rw [List.foldl_cons, ih, mem_couple, or_assoc]
      simp only [List.mem_cons, exists_eq_or_imp]
  rw [this]
  simp

theorem allocate_ok (D : Nat) : ∀ (parts : List Part), (∀ P ∈ parts, P.Valid) →
    ∃ R, allocate D (parts.map Part.proc) = .ok R ∧
      ∀ r c, c ∈ R r ↔ ∃ h ∈ allHoods parts, r ∈ dofIds D h ∧ c ∈ dofIds D h
  | [], _ => ⟨fun _ => ∅, rfl, by simp [allHoods]⟩
  | P :: parts, hv => by
    obtain ⟨R, hR, hm⟩ := allocate_ok D parts fun P h => hv P (List.mem_cons_of_mem _ h)
    refine ⟨fun r => rowEntries D P.hoods r ∪ R r, ?_, ?_⟩
    · simp only [List.map_cons, allocate]
      rw [Part.hoods_ok (hv P (List.mem_cons_self ..)), Outcome.ok_bind, hR, Outcome.ok_bind]
    · intro r c
      rw [Finset.mem_union, mem_rowEntries, hm]
      unfold allHoods
      rw [List.flatMap_cons]
      simp only [List.mem_append, or_and_right, exists_or]

end Verif.Tangent
