import Verif.Data.Model
import Verif.Field.Lemmas
import Mathlib.Logic.Function.Basic

/-! Helper lemmas: what one allocation does to a state and to the heap. -/

namespace Verif.Data

open Verif Verif.Field

variable {α : Type}

/-- The vector a state associates with a field. -/
def State.ref (st : State) (f : Nat) : Option Ref := (st.dataVec[f]?).join

/-- Association lists: `std::map` look-up after storing. -/
theorem lookup_cons' {β : Type} [BEq β] [LawfulBEq β] [DecidableEq β] {γ : Type} (l : List (β × γ)) (k k' : β) (v : γ) :
    ((k, v) :: l).lookup k' = if k' = k then some v else l.lookup k' := by
  rw [List.lookup_cons]
  by_cases h : k' = k
  · subst h; simp
  · have : (k' == k) = false := by simpa using h
    rw [this]; simp [h]

theorem storeColumns_nil (st : State) : storeColumns st [] = st := rfl

theorem storeColumns_cons (st : State) (p : Nat × Ref) (ps : List (Nat × Ref)) :
    storeColumns st (p :: ps) = storeColumns
      { st with dataMap := p :: st.dataMap, dataVec := st.dataVec.set p.1 (some p.2) } ps := rfl

theorem storeColumns_length (cols : List (Nat × Ref)) (st : State) :
    (storeColumns st cols).dataVec.length = st.dataVec.length := by
  induction cols generalizing st with
  | nil => rfl
  | cons p ps ih => rw [storeColumns_cons, ih]; simp

theorem storeColumns_point (cols : List (Nat × Ref)) (st : State) :
    (storeColumns st cols).pointData = st.pointData ∧
    (storeColumns st cols).bondData = st.bondData := by
  induction cols generalizing st with
  | nil => exact ⟨rfl, rfl⟩
  | cons p ps ih => rw [storeColumns_cons]; exact ih _

/-- Storing columns keeps the two look-up structures in agreement. -/
theorem storeColumns_agree (cols : List (Nat × Ref)) (st : State)
    (hb : ∀ p ∈ cols, p.1 < st.dataVec.length)
    (ha : ∀ f, st.dataMap.lookup f = st.ref f) :
    ∀ f, (storeColumns st cols).dataMap.lookup f = (storeColumns st cols).ref f := by
  induction cols generalizing st with
  | nil => exact ha
  | cons p ps ih =>
    rw [storeColumns_cons]
    apply ih
    · intro q hq; simpa using hb q (List.mem_cons_of_mem _ hq)
    · intro f
      obtain ⟨k, v⟩ := p
      have hk := hb (k, v) (by simp)
      simp only at hk ⊢
      rw [lookup_cons']
      unfold State.ref
      simp only [List.getElem?_set]
      by_cases h : k = f
      · subst h; simp [hk]
      · rw [if_neg (fun e => h e.symm), if_neg h]; exact ha f

/-- Where the entries of the result come from. -/
theorem storeColumns_ref (cols : List (Nat × Ref)) (st : State)
    (hb : ∀ p ∈ cols, p.1 < st.dataVec.length) (f : Nat) :
    ((∀ p ∈ cols, p.1 ≠ f) ∧ (storeColumns st cols).ref f = st.ref f) ∨
    (∃ r, (f, r) ∈ cols ∧ (storeColumns st cols).ref f = some r) := by
  induction cols generalizing st with
  | nil => left; exact ⟨by simp, rfl⟩
  | cons p ps ih =>
    rw [storeColumns_cons]
    obtain ⟨k, v⟩ := p
    have hk := hb (k, v) (by simp)
    have hb' : ∀ p ∈ ps, p.1 < (st.dataVec.set k (some v)).length := by
      intro q hq; simpa using hb q (List.mem_cons_of_mem _ hq)
    rcases ih { st with dataMap := (k, v) :: st.dataMap, dataVec := st.dataVec.set k (some v) } hb'
      with ⟨h1, h2⟩ | ⟨r, h1, h2⟩
    · by_cases hkf : k = f
      · right
        refine ⟨v, by simp [hkf], ?_⟩
        simp only at h2 hk
        rw [h2]
        unfold State.ref
        subst hkf
        simp [hk]
      · left
        refine ⟨?_, ?_⟩
        · intro p hp
          rcases List.mem_cons.1 hp with rfl | hp
          · exact hkf
          · exact h1 p hp
        · rw [h2]
          unfold State.ref
          simp [hkf]
    · right
      exact ⟨r, List.mem_cons_of_mem _ h1, h2⟩

theorem le_getLast_sortIds {l : List Nat} {m x : Nat} (h : (sortIds l).getLast? = some m)
    (hx : x ∈ l) : x ≤ m := by
  have h1 := sorted_sortIds l
  have hx' : x ∈ sortIds l := mem_sortIds.2 hx
  rw [List.getLast?_eq_some_iff] at h
  obtain ⟨ys, hys⟩ := h
  rw [hys] at h1 hx'
  rw [List.pairwise_append] at h1
  rcases List.mem_append.1 hx' with hx' | hx'
  · exact h1.2.2 x hx' m (by simp)
  · simp at hx'; omega

theorem resizeFor_length (v : List (Option Ref)) (m : Nat) : m < (resizeFor v m).length := by
  unfold resizeFor
  split_ifs with h
  · simp; omega
  · omega

theorem resizeFor_ref (v : List (Option Ref)) (m f : Nat) :
    ((resizeFor v m)[f]?).join = (v[f]?).join := by
  unfold resizeFor
  split_ifs with h
  · by_cases hf : f < v.length
    · rw [List.getElem?_append_left hf]
    · rw [List.getElem?_append_right (by omega), List.getElem?_eq_none (by omega : v.length ≤ f)]
      rw [List.getElem?_replicate]
      split_ifs <;> rfl
  · rfl

/-- What an allocation of `fieldIds` in state `st` does.  Common to point and bond data. -/
structure AllocSpec (w : World α) (st : State) (fieldIds : List Nat) (w' : World α) (st' : State) :
    Prop where
  world : ∃ h, w' = { w with heap := h, next := w'.next }
  mono : w.next ≤ w'.next
  heap : ∀ r, r < w.next → w'.heap r = w.heap r
  old : ∀ f, f ∉ fieldIds → st'.ref f = st.ref f
  fresh : ∀ f ∈ fieldIds, ∃ r, st'.ref f = some r ∧ w.next ≤ r ∧ r < w'.next
  inj : ∀ f ∈ fieldIds, ∀ g ∈ fieldIds, st'.ref f = st'.ref g → f = g
  agree : (∀ f, st.dataMap.lookup f = st.ref f) → ∀ f, st'.dataMap.lookup f = st'.ref f

theorem mem_zip_sorted {ids : List Nat} {cols : List Ref} {p : Nat × Ref}
    (h : p ∈ (sortIds ids).zip cols) : p.1 ∈ ids ∧ p.2 ∈ cols :=
  ⟨mem_sortIds.1 (List.of_mem_zip h).1, (List.of_mem_zip h).2⟩

theorem exists_zip {ids : List Nat} {cols : List Ref} (hl : ids.length = cols.length) {f : Nat}
    (h : f ∈ ids) : ∃ r, (f, r) ∈ (sortIds ids).zip cols := by
  obtain ⟨i, hi, he⟩ := List.getElem_of_mem (mem_sortIds.2 h)
  have hi' : i < cols.length := by rw [length_sortIds] at hi; omega
  refine ⟨cols[i], ?_⟩
  have : ((sortIds ids).zip cols)[i]'(by simp; omega) = (f, cols[i]) := by
    rw [List.getElem_zip, he]
  rw [← this]
  exact List.getElem_mem _

theorem zip_right_inj {ids : List Nat} {cols : List Ref} (hn : cols.Nodup) {f g : Nat} {r : Ref}
    (hf : (f, r) ∈ ids.zip cols) (hg : (g, r) ∈ ids.zip cols) : f = g := by
  obtain ⟨i, hi, he⟩ := List.getElem_of_mem hf
  obtain ⟨j, hj, he'⟩ := List.getElem_of_mem hg
  rw [List.getElem_zip] at he he'
  simp only [Prod.mk.injEq] at he he'
  have : cols[i]'(by simp at hi; omega) = cols[j]'(by simp at hj; omega) := by
    rw [he.2, he'.2]
  have := (List.Nodup.getElem_inj_iff hn).1 this
  subst this
  rw [← he.1, ← he'.1]

/-- The shared tail of the two allocation functions. -/
theorem alloc_core [Zero α] (w : World α) (st : State) (ids : List Nat) (m : BlockMap) (maxId : Nat)
    (pd : List (Option (List Ref))) (bd : Option (List Ref))
    (h : (sortIds ids).getLast? = some maxId) :
    AllocSpec w st ids (newColumns w m ids.length).2
      (storeColumns { st with pointData := pd, bondData := bd, dataVec := resizeFor st.dataVec maxId }
        ((sortIds ids).zip (newColumns w m ids.length).1)) := by
  set st1 : State :=
    { st with pointData := pd, bondData := bd, dataVec := resizeFor st.dataVec maxId } with hst1
  set cols := (newColumns w m ids.length).1 with hcols
  have hc : cols = List.range' w.next ids.length := rfl
  have hb : ∀ p ∈ (sortIds ids).zip cols, p.1 < st1.dataVec.length := by
    intro p hp
    have := le_getLast_sortIds h (mem_zip_sorted hp).1
    have := resizeFor_length st.dataVec maxId
    simp only [hst1]; omega
  have href1 : ∀ f, st1.ref f = st.ref f := fun f => resizeFor_ref st.dataVec maxId f
  have hnd : cols.Nodup := by rw [hc]; exact List.nodup_range'
  have hlen : ids.length = cols.length := by rw [hc]; simp
  have hnext : (newColumns w m ids.length).2.next = w.next + ids.length := rfl
  have hfresh : ∀ f ∈ ids, ∃ r, (f, r) ∈ (sortIds ids).zip cols ∧
      (storeColumns st1 ((sortIds ids).zip cols)).ref f = some r := by
    intro f hf
    rcases storeColumns_ref _ st1 hb f with ⟨h1, -⟩ | h2
    · obtain ⟨r, hr⟩ := exists_zip hlen hf
      exact absurd rfl (h1 _ hr)
    · exact h2
  refine ⟨⟨_, rfl⟩, by rw [hnext]; omega, ?_, ?_, ?_, ?_, ?_⟩
  · intro r hr
    show (if w.next ≤ r ∧ r < w.next + ids.length then Vec.zeros m else w.heap r) = w.heap r
    rw [if_neg (by omega)]
  · intro f hf
    rcases storeColumns_ref _ st1 hb f with ⟨-, h2⟩ | ⟨r, h2, -⟩
    · rw [h2, href1]
    · exact absurd (mem_zip_sorted h2).1 hf
  · intro f hf
    obtain ⟨r, hr1, hr2⟩ := hfresh f hf
    refine ⟨r, hr2, ?_⟩
    have := (mem_zip_sorted hr1).2
    rw [hc, List.mem_range'_1] at this
    rw [hnext]; exact this
  · intro f hf g hg he
    obtain ⟨r, hr1, hr2⟩ := hfresh f hf
    obtain ⟨r', hr1', hr2'⟩ := hfresh g hg
    rw [hr2, hr2'] at he
    have : r = r' := Option.some.inj he
    subst this
    exact zip_right_inj hnd hr1 hr1'
  · intro ha
    apply storeColumns_agree _ st1 hb
    intro f
    rw [href1]; exact ha f

theorem allocatePointData_spec [Zero α] {w w' : World α} {st st' : State} {len : Length}
    {ids : List Nat} {m : Option BlockMap}
    (h : allocatePointData w st len ids m = .ok (w', st')) : AllocSpec w st ids w' st' := by
  unfold allocatePointData at h
  split at h
  · cases h
  · rename_i maxId hmax
    split at h <;> try cases h
    rename_i dim hdim
    split at h <;> try cases h
    split at h <;> try cases h
    rename_i mm
    exact alloc_core w st ids mm maxId _ st.bondData hmax

theorem allocateBondData_spec [Zero α] {w w' : World α} {st st' : State}
    {ids : List Nat} {m : Option BlockMap}
    (h : allocateBondData w st ids m = .ok (w', st')) : AllocSpec w st ids w' st' := by
  unfold allocateBondData at h
  split at h
  · cases h
  · rename_i maxId hmax
    split at h <;> try cases h
    split at h <;> try cases h
    rename_i mm
    exact alloc_core w st ids mm maxId st.pointData _ hmax

end Verif.Data
