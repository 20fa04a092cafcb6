import Verif.Exodus.Spec
import Mathlib.Data.List.Nodup
import Mathlib.Data.List.Basic
import Mathlib.Tactic.Ring

/-! # The numbers of the variables -/

namespace Verif.Exodus

open Verif Verif.Field Verif.Mech

/-- Names numbered from 1. -/
def numbered (l : List String) : Index := ⟨l.zipIdx 1, l.length + 1⟩

theorem lookup_zipIdx {l : List String} {k i : Nat} (hl : l.Nodup) (hi : i < l.length) :
    (l.zipIdx k).lookup l[i] = some (k + i) := by
  induction l generalizing k i with
  | nil => exact absurd hi (Nat.not_lt_zero _)
  | cons a l ih =>
    rw [List.zipIdx_cons, List.lookup_cons]
    obtain ⟨ha, hl⟩ := List.nodup_cons.mp hl
    cases i with
    | zero => simp
    | succ i =>
      have hi' : i < l.length := by simpa using hi
      have hne : ((l[i] : String) == a) = false := by
        rw [beq_eq_false_iff_ne]
        exact fun e => ha (e ▸ List.getElem_mem hi')
      rw [List.getElem_cons_succ, hne]
      simp only
      rw [ih hl hi']
      congr 1
      omega

theorem lookup_zipIdx_none {l : List String} {k : Nat} {a : String} (ha : a ∉ l) :
    (l.zipIdx k).lookup a = none := by
  induction l generalizing k with
  | nil => rfl
  | cons b l ih =>
    rw [List.zipIdx_cons, List.lookup_cons]
    have hne : (a == b) = false := by
      rw [beq_eq_false_iff_ne]
      exact fun e => ha (e ▸ List.mem_cons_self)
    rw [hne]
    exact ih fun h => ha (List.mem_cons_of_mem _ h)

theorem add_numbered {l : List String} {a : String} (ha : a ∉ l) :
    (numbered l).add a = numbered (l ++ [a]) := by
  unfold numbered Index.add
  simp only
  rw [lookup_zipIdx_none ha]
  simp [List.zipIdx_append]
  omega

theorem addAll_numbered (l m : List String) (h : (l ++ m).Nodup) :
    (numbered l).addAll m = numbered (l ++ m) := by
  induction m generalizing l with
  | nil => simp [Index.addAll]
  | cons a m ih =>
    have ha : a ∉ l := by
      intro hal
      rw [List.nodup_append] at h
      exact h.2.2 a hal a List.mem_cons_self rfl
    rw [Index.addAll, List.foldl_cons, add_numbered ha]
    have := ih (l ++ [a]) (by simpa using h)
    rw [Index.addAll] at this
    rw [this]
    simp

theorem addAll_empty (m : List String) (h : m.Nodup) : Index.empty.addAll m = numbered m := by
  have := addAll_numbered [] m (by simpa using h)
  simpa [numbered, Index.empty] using this

theorem get_numbered {l : List String} (hl : l.Nodup) {i : Nat} (hi : i < l.length) :
    (numbered l).get l[i] = i + 1 := by
  unfold Index.get numbered
  rw [lookup_zipIdx hl hi]
  simp
  omega

theorem get_numbered_mem {l : List String} (hl : l.Nodup) {a : String} (ha : a ∈ l) :
    (numbered l).get a = l.idxOf a + 1 := by
  have hi := List.idxOf_lt_length_of_mem ha
  have := get_numbered hl hi
  rwa [List.getElem_idxOf] at this

theorem get_injective {l : List String} (hl : l.Nodup) {a b : String} (ha : a ∈ l) (hb : b ∈ l)
    (h : (numbered l).get a = (numbered l).get b) : a = b := by
  rw [get_numbered_mem hl ha, get_numbered_mem hl hb] at h
  have h : l.idxOf a = l.idxOf b := by omega
  exact (List.idxOf_inj ha).mp h

theorem copyName_ok {s t : String} (h : copyName s = .ok t) : t = s ∧ s.utf8ByteSize ≤ maxStr := by
  unfold copyName at h
  split at h
  · cases h; exact ⟨rfl, by assumption⟩
  · cases h

theorem fillNames_ok {l : List String} {done : List String} {t : List String} {rest : List String}
    (h : fillNames (l.zipIdx (done.length + 1)) (done ++ rest) = .ok t) (hr : rest.length = l.length) :
    t = done ++ l ∧ ∀ a ∈ l, a.utf8ByteSize ≤ maxStr := by
  induction l generalizing done rest with
  | nil =>
    rw [List.length_nil, List.length_eq_zero_iff] at hr
    subst hr
    rw [List.zipIdx_nil, fillNames] at h
    cases h
    simp
  | cons a l ih =>
    rw [List.zipIdx_cons, fillNames, Outcome.bind_eq_ok] at h
    obtain ⟨s, hs, h⟩ := h
    obtain ⟨rfl, hle⟩ := copyName_ok hs
    cases rest with
    | nil => simp at hr
    | cons r rest =>
      have hset : (done ++ r :: rest).set (done.length + 1 - 1) s = (done ++ [s]) ++ rest := by
        simp [List.set_append]
      rw [if_pos (by simp), hset] at h
      have := ih (done := done ++ [s]) (rest := rest) (by simpa using h) (by simpa using hr)
      refine ⟨by simpa using this.1, ?_⟩
      intro b hb
      rcases List.mem_cons.mp hb with rfl | hb
      · exact hle
      · exact this.2 b hb

theorem fillNames_fits {l : List String} {done : List String} {rest : List String}
    (hr : rest.length = l.length) (hf : ∀ a ∈ l, a.utf8ByteSize ≤ maxStr) :
    fillNames (l.zipIdx (done.length + 1)) (done ++ rest) = .ok (done ++ l) := by
  induction l generalizing done rest with
  | nil =>
    rw [List.length_nil, List.length_eq_zero_iff] at hr
    subst hr
    simp [fillNames]
  | cons a l ih =>
    rw [List.zipIdx_cons, fillNames, copyName, if_pos (hf a List.mem_cons_self)]
    simp only [Outcome.ok_bind]
    cases rest with
    | nil => simp at hr
    | cons r rest =>
      have hset : (done ++ r :: rest).set (done.length + 1 - 1) a = (done ++ [a]) ++ rest := by
        simp [List.set_append]
      rw [if_pos (by simp), hset]
      have := ih (done := done ++ [a]) (rest := rest) (by simpa using hr)
        fun b hb => hf b (List.mem_cons_of_mem _ hb)
      simpa using this

theorem table_ok {l t : List String} {d : Bool} (h : (numbered l).table d = .ok t) :
    (t = l ∧ ∀ a ∈ l, a.utf8ByteSize ≤ maxStr) ∨ t = [] := by
  unfold Index.table at h
  split at h
  · left
    have := fillNames_ok (l := l) (done := []) (rest := List.replicate l.length "")
      (by simpa [numbered] using h) (by simp)
    simpa using this
  · right
    cases h
    rfl

theorem table_true {l t : List String} (h : (numbered l).table true = .ok t) :
    t = l ∧ ∀ a ∈ l, a.utf8ByteSize ≤ maxStr := by
  rcases table_ok h with h' | h'
  · exact h'
  · cases l with
    | nil => subst h'; simp
    | cons a l =>
      subst h'
      unfold Index.table at h
      rw [if_pos (by simp [numbered])] at h
      have := fillNames_ok (l := a :: l) (done := []) (rest := List.replicate (a :: l).length "")
        (by simpa [numbered] using h) (by simp)
      simp at this

theorem table_fits {l : List String} (hf : ∀ a ∈ l, a.utf8ByteSize ≤ maxStr) :
    (numbered l).table true = .ok l := by
  unfold Index.table
  split
  · have := fillNames_fits (l := l) (done := []) (rest := List.replicate l.length "") (by simp) hf
    simpa [numbered] using this
  · next h =>
    simp [numbered] at h
    rw [h]

/-! ## The request -/

theorem endings_dimension {l : Length} {n : Nat} (h : variableDimension l = .ok n) :
    (l = .symmetricTensor ∨ (endings l).length = n) ∧ n ≤ 9 := by
  cases l <;> simp [variableDimension] at h <;> subst h <;> simp [endings]

theorem kindNames_cons (r : Relation) (v : Var) (vs : List Var) :
    kindNames r (v :: vs) =
      (if v.spec.relation = r then v.components else []) ++ kindNames r vs := by
  unfold kindNames
  by_cases h : v.spec.relation = r
  · simp [h]
  · simp [h]

theorem addAll_append (s : Index) (a b : List String) : (s.addAll a).addAll b = s.addAll (a ++ b) := by
  simp [Index.addAll]

theorem addAll_nil (s : Index) : s.addAll [] = s := rfl

theorem assign_ok {s s' : Names} {v : Var} (h : s.assign v = .ok s') :
    Allowed v ∧
    s'.global = s.global.addAll (if v.spec.relation = .global then v.components else []) ∧
    s'.node = s.node.addAll (if v.spec.relation = .node then v.components else []) ∧
    s'.elem = s.elem.addAll (if v.spec.relation = .element then v.components else []) := by
  unfold Names.assign at h
  unfold Allowed Var.components
  generalize hl : v.spec.length = l at h ⊢
  generalize hr : v.spec.relation = r at h ⊢
  cases l <;> simp only [variableDimension] at h <;>
    first
    | (cases h; done)
    | (split at h
       · next e =>
         subst e
         first
         | (simp only [Outcome.ok_bind] at h; cases h; simp [endings, numberSuffix, addAll_nil]; done)
         | (cases h; simp [endings, tensorSuffix, addAll_nil]; done)
         | (cases h; done)
       · cases h
         done)
    | (cases h; cases r <;> simp [endings, Names.addTo, addAll_nil]; done)

theorem assign_defined {s : Names} {v : Var} (h : Allowed v) : ∃ s', s.assign v = .ok s' := by
  unfold Allowed at h
  unfold Names.assign
  generalize hl : v.spec.length = l at h ⊢
  generalize hr : v.spec.relation = r at h ⊢
  cases l <;> simp [variableDimension] at h ⊢ <;> simp [h]

theorem assignAll_ok {vars : List Var} {s s' : Names} (h : s.assignAll vars = .ok s') :
    (∀ v ∈ vars, Allowed v) ∧
    s'.global = s.global.addAll (kindNames .global vars) ∧
    s'.node = s.node.addAll (kindNames .node vars) ∧
    s'.elem = s.elem.addAll (kindNames .element vars) := by
  induction vars generalizing s with
  | nil =>
    rw [Names.assignAll] at h
    cases h
    exact ⟨by simp, rfl, rfl, rfl⟩
  | cons v vs ih =>
    rw [Names.assignAll, Outcome.bind_eq_ok] at h
    obtain ⟨s1, h1, h2⟩ := h
    obtain ⟨ha, g1, n1, e1⟩ := assign_ok h1
    obtain ⟨hb, g2, n2, e2⟩ := ih h2
    refine ⟨?_, ?_, ?_, ?_⟩
    · intro w hw
      rcases List.mem_cons.mp hw with rfl | hw
      · exact ha
      · exact hb w hw
    · rw [g2, g1, addAll_append, kindNames_cons]
    · rw [n2, n1, addAll_append, kindNames_cons]
    · rw [e2, e1, addAll_append, kindNames_cons]

theorem assignAll_defined {vars : List Var} {s : Names} (h : ∀ v ∈ vars, Allowed v) :
    ∃ s', s.assignAll vars = .ok s' := by
  induction vars generalizing s with
  | nil => exact ⟨s, rfl⟩
  | cons v vs ih =>
    obtain ⟨s1, h1⟩ := assign_defined (s := s) (h v List.mem_cons_self)
    obtain ⟨s2, h2⟩ := ih (s := s1) fun w hw => h w (List.mem_cons_of_mem _ hw)
    exact ⟨s2, by rw [Names.assignAll, h1]; simp only [Outcome.ok_bind]; exact h2⟩

theorem assignGlobals_ok {vars : List Var} {s s' : Index} (h : s.assignGlobals vars = .ok s')
    (hg : ∀ v ∈ vars, v.spec.relation = .global) :
    (∀ v ∈ vars, v.spec.length = .scalar ∨ v.spec.length = .vector) ∧
    s' = s.addAll (kindNames .global vars) := by
  induction vars generalizing s with
  | nil =>
    rw [Index.assignGlobals] at h
    cases h
    exact ⟨by simp, rfl⟩
  | cons v vs ih =>
    rw [Index.assignGlobals, Outcome.bind_eq_ok] at h
    obtain ⟨s1, h1, h2⟩ := h
    have hv := hg v List.mem_cons_self
    obtain ⟨hb, g2⟩ := ih h2 fun w hw => hg w (List.mem_cons_of_mem _ hw)
    have h1' : (v.spec.length = .scalar ∨ v.spec.length = .vector) ∧ s1 = s.addAll v.components := by
      unfold Index.assignGlobal at h1
      unfold Var.components
      rw [hv] at h1
      generalize v.spec.length = l at h1 ⊢
      cases l <;> simp at h1 <;> subst h1 <;> simp [endings]
    refine ⟨?_, ?_⟩
    · intro w hw
      rcases List.mem_cons.mp hw with rfl | hw
      · exact h1'.1
      · exact hb w hw
    · rw [g2, h1'.2, addAll_append, kindNames_cons, if_pos hv]

theorem assignGlobals_defined {vars : List Var} {s : Index}
    (h : ∀ v ∈ vars, v.spec.length = .scalar ∨ v.spec.length = .vector) :
    ∃ s', s.assignGlobals vars = .ok s' := by
  induction vars generalizing s with
  | nil => exact ⟨s, rfl⟩
  | cons v vs ih =>
    have : ∃ s1, s.assignGlobal v = .ok s1 := by
      unfold Index.assignGlobal
      rcases h v List.mem_cons_self with e | e <;> rw [e] <;> exact ⟨_, rfl⟩
    obtain ⟨s1, h1⟩ := this
    obtain ⟨s2, h2⟩ := ih (s := s1) fun w hw => h w (List.mem_cons_of_mem _ hw)
    exact ⟨s2, by rw [Index.assignGlobals, h1]; simp only [Outcome.ok_bind]; exact h2⟩

theorem component_mem {r : Relation} {vars : List Var} {v : Var} (hv : v ∈ vars)
    (hr : v.spec.relation = r) {e : String} (he : e ∈ endings v.spec.length) :
    v.name ++ e ∈ kindNames r vars := by
  unfold kindNames
  rw [List.mem_flatMap]
  refine ⟨v, ?_, ?_⟩
  · rw [List.mem_filter]
    exact ⟨hv, by simpa using hr⟩
  · exact List.mem_map_of_mem he

end Verif.Exodus
