import Verif.Data.Create

/-! Helper lemmas: `allocateData` as a whole, and every API call, preserve the invariant. -/

namespace Verif.Data

open Verif Verif.Field

variable {α : Type}

theorem isGlobal_of_spec {fm : FieldManager} {ds : List Request} (hR : Rep fm ds) {f : Nat}
    {spec : FieldSpec} (h : Field.getFieldSpec fm f = .ok spec) :
    isGlobalSpec fm f = .ok (decide (spec.relation = Relation.global)) := by
  unfold Field.getFieldSpec at h
  split_ifs at h with hlt
  have hlt' : f < ds.length := by
    rw [hR.specs] at hlt; simpa using hlt
  have hs : fm.fieldSpecs[f]? = some (toSpec f ds[f]) := by
    rw [hR.specs, List.getElem?_mapIdx, List.getElem?_eq_getElem hlt']; rfl
  have : fm.fieldSpecs[f]'(by omega) = spec := by injection h
  rw [List.getElem?_eq_getElem (by omega), this] at hs
  have hs := Option.some.inj hs
  unfold isGlobalSpec
  rw [hR.globals, List.getElem?_map, List.getElem?_eq_getElem hlt', hs]
  rfl

/-- Where a requested field must end up. -/
def Placed (fm : FieldManager) (A0 : List Nat) (s : Sorted) (f : Nat) : Prop :=
  ∃ spec, Field.getFieldSpec fm f = .ok spec ∧
    match spec.relation with
    | .global => f ∈ A0 ∨
        (spec.temporal = .constant ∧ (f ∈ s.slScalar ∨ f ∈ s.slVector)) ∨
        (spec.temporal = .twoStep ∧ (f ∈ s.sfScalar ∨ f ∈ s.sfVector))
    | .bond => (spec.temporal = .constant ∧ f ∈ s.dm.statelessBond) ∨
        (spec.temporal = .twoStep ∧ f ∈ s.dm.statefulBond)
    | .undefined => True
    | _ => (spec.temporal = .constant ∧ ∃ len, (len, f) ∈ s.dm.statelessPoint) ∨
        (spec.temporal = .twoStep ∧ ∃ len, (len, f) ∈ s.dm.statefulPoint)

def news (s : Sorted) : List Nat := s.slScalar ++ s.sfScalar ++ s.slVector ++ s.sfVector

/-- Invariant of the classification loop. -/
structure CI (fm : FieldManager) (dm0 : DataManager) (A0 done : List Nat) (s : Sorted) : Prop where
  sp : ∀ p ∈ s.dm.statelessPoint, isGlobalSpec fm p.2 = .ok false
  fp : ∀ p ∈ s.dm.statefulPoint, isGlobalSpec fm p.2 = .ok false
  sb : ∀ f ∈ s.dm.statelessBond, isGlobalSpec fm f = .ok false
  fb : ∀ f ∈ s.dm.statefulBond, isGlobalSpec fm f = .ok false
  nd : (news s).Nodup
  nw : ∀ f ∈ news s, f ∈ done ∧ isGlobalSpec fm f = .ok true ∧ f ∈ s.allGlobal ∧ f ∉ A0
  sub : ∀ f ∈ A0, f ∈ s.allGlobal
  back : ∀ f ∈ s.allGlobal, f ∈ A0 ∨ f ∈ news s
  stN : s.dm.stateN = dm0.stateN
  stP : s.dm.stateNP1 = dm0.stateNP1
  st0 : s.dm.stateNONE = dm0.stateNONE
  placed : ∀ f ∈ done, Placed fm A0 s f

theorem perm_count {l l' : List Nat} (h : ∀ a, l.count a = l'.count a) : l.Perm l' :=
  List.perm_iff_count.2 h

theorem classify_inv {fm : FieldManager} {ds : List Request} (hR : Rep fm ds) {dm0 : DataManager}
    {A0 done : List Nat} {s s' : Sorted} {f : Nat} (hC : CI fm dm0 A0 done s) (hf : f ∉ done)
    (h : classify fm s f = .ok s') : CI fm dm0 A0 (f :: done) s' := by
  unfold classify at h
  split at h <;> try cases h
  rename_i spec hspec
  have hgl := isGlobal_of_spec hR hspec
  have hmono : ∀ {t : Sorted}, (∀ x ∈ s.slScalar, x ∈ t.slScalar) → (∀ x ∈ s.slVector, x ∈ t.slVector) →
      (∀ x ∈ s.sfScalar, x ∈ t.sfScalar) → (∀ x ∈ s.sfVector, x ∈ t.sfVector) →
      (∀ x ∈ s.dm.statelessBond, x ∈ t.dm.statelessBond) →
      (∀ x ∈ s.dm.statefulBond, x ∈ t.dm.statefulBond) →
      (∀ x ∈ s.dm.statelessPoint, x ∈ t.dm.statelessPoint) →
      (∀ x ∈ s.dm.statefulPoint, x ∈ t.dm.statefulPoint) →
      Placed fm A0 t f → ∀ g ∈ f :: done, Placed fm A0 t g := by
    intro t h1 h2 h3 h4 h5 h6 h7 h8 hp g hg
    rcases List.mem_cons.1 hg with rfl | hg
    · exact hp
    · obtain ⟨sp, hsp, hm⟩ := hC.placed g hg
      refine ⟨sp, hsp, ?_⟩
      split
      · rename_i e; rw [e] at hm
        rcases hm with hm | ⟨a, hm | hm⟩ | ⟨a, hm | hm⟩
        · exact Or.inl hm
        · exact Or.inr (Or.inl ⟨a, Or.inl (h1 _ hm)⟩)
        · exact Or.inr (Or.inl ⟨a, Or.inr (h2 _ hm)⟩)
        · exact Or.inr (Or.inr ⟨a, Or.inl (h3 _ hm)⟩)
        · exact Or.inr (Or.inr ⟨a, Or.inr (h4 _ hm)⟩)
      · rename_i e; rw [e] at hm
        rcases hm with ⟨a, hm⟩ | ⟨a, hm⟩
        · exact Or.inl ⟨a, h5 _ hm⟩
        · exact Or.inr ⟨a, h6 _ hm⟩
      · trivial
      · rename_i e1 e2 e3
        split at hm
        · exact absurd ‹_› e1
        · exact absurd ‹_› e2
        · exact absurd ‹_› e3
        · rcases hm with ⟨a, l, hm⟩ | ⟨a, l, hm⟩
          · exact Or.inl ⟨a, l, h7 _ hm⟩
          · exact Or.inr ⟨a, l, h8 _ hm⟩
  split at h
  · -- global
    rename_i hrel
    rw [hrel] at hgl
    simp only [decide_true] at hgl
    split_ifs at h with hmem
    · cases h
      refine ⟨hC.sp, hC.fp, hC.sb, hC.fb, hC.nd, ?_, hC.sub, hC.back, hC.stN, hC.stP, hC.st0, ?_⟩
      · intro g hg
        obtain ⟨a, b, c, d⟩ := hC.nw g hg
        exact ⟨List.mem_cons_of_mem _ a, b, c, d⟩
      · refine hmono (fun _ h => h) (fun _ h => h) (fun _ h => h) (fun _ h => h) (fun _ h => h)
          (fun _ h => h) (fun _ h => h) (fun _ h => h) ?_
        refine ⟨spec, hspec, ?_⟩
        simp only [hrel]
        rcases hC.back f hmem with h | h
        · exact Or.inl h
        · exact absurd (hC.nw f h).1 hf
    · have hfn : f ∉ news s := fun h => hf (hC.nw f h).1
      have hA0 : f ∉ A0 := fun h => hmem (hC.sub f h)
      have key : ∀ t : Sorted, (news t).Perm (f :: news s) → t.allGlobal = s.allGlobal ++ [f] →
          t.dm = s.dm → (∀ g ∈ f :: done, Placed fm A0 t g) →
          CI fm dm0 A0 (f :: done) t := by
        intro t hp hg hd hpl
        refine ⟨by rw [hd]; exact hC.sp, by rw [hd]; exact hC.fp, by rw [hd]; exact hC.sb,
          by rw [hd]; exact hC.fb, hp.nodup_iff.2 (List.nodup_cons.2 ⟨hfn, hC.nd⟩), ?_, ?_, ?_,
          by rw [hd]; exact hC.stN, by rw [hd]; exact hC.stP, by rw [hd]; exact hC.st0, hpl⟩
        · intro g hgm
          rw [hp.mem_iff, List.mem_cons] at hgm
          rcases hgm with rfl | hgm
          · exact ⟨List.mem_cons_self, hgl, by rw [hg]; simp, hA0⟩
          · obtain ⟨a, b, c, d⟩ := hC.nw g hgm
            exact ⟨List.mem_cons_of_mem _ a, b, by rw [hg]; simp [c], d⟩
        · intro g hgm; rw [hg]; simp [hC.sub g hgm]
        · intro g hgm
          rw [hg, List.mem_append, List.mem_singleton] at hgm
          rcases hgm with hgm | rfl
          · rcases hC.back g hgm with h | h
            · exact Or.inl h
            · right; rw [hp.mem_iff]; exact List.mem_cons_of_mem _ h
          · right; rw [hp.mem_iff]; exact List.mem_cons_self
      split at h
      · rename_i hlen htmp
        cases h
        refine key _ ?_ rfl rfl ?_
        · exact perm_count (by intro a; simp [news, List.count_append, List.count_cons]; omega)
        · refine hmono (fun _ h => by simp [h]) (fun _ h => h) (fun _ h => h) (fun _ h => h)
            (fun _ h => h) (fun _ h => h) (fun _ h => h) (fun _ h => h) ⟨spec, hspec, ?_⟩
          simp only [hrel]
          exact Or.inr (Or.inl ⟨htmp, Or.inl (by simp)⟩)
      · rename_i hlen htmp
        cases h
        refine key _ ?_ rfl rfl ?_
        · exact perm_count (by intro a; simp [news, List.count_append, List.count_cons]; omega)
        · refine hmono (fun _ h => h) (fun _ h => h) (fun _ h => by simp [h]) (fun _ h => h)
            (fun _ h => h) (fun _ h => h) (fun _ h => h) (fun _ h => h) ⟨spec, hspec, ?_⟩
          simp only [hrel]
          exact Or.inr (Or.inr ⟨htmp, Or.inl (by simp)⟩)
      · rename_i hlen htmp
        cases h
        refine key _ ?_ rfl rfl ?_
        · exact perm_count (by intro a; simp [news, List.count_append, List.count_cons]; omega)
        · refine hmono (fun _ h => h) (fun _ h => by simp [h]) (fun _ h => h) (fun _ h => h)
            (fun _ h => h) (fun _ h => h) (fun _ h => h) (fun _ h => h) ⟨spec, hspec, ?_⟩
          simp only [hrel]
          exact Or.inr (Or.inl ⟨htmp, Or.inr (by simp)⟩)
      · rename_i hlen htmp
        cases h
        refine key _ ?_ rfl rfl ?_
        · exact perm_count (by intro a; simp [news, List.count_append, List.count_cons]; omega)
        · refine hmono (fun _ h => h) (fun _ h => h) (fun _ h => h) (fun _ h => by simp [h])
            (fun _ h => h) (fun _ h => h) (fun _ h => h) (fun _ h => h) ⟨spec, hspec, ?_⟩
          simp only [hrel]
          exact Or.inr (Or.inr ⟨htmp, Or.inr (by simp)⟩)
      · cases h
  · -- bond
    rename_i hrel
    rw [hrel] at hgl
    have hgl : isGlobalSpec fm f = .ok false := hgl
    split_ifs at h with hlen
    split at h
    · rename_i htmp
      cases h
      refine ⟨hC.sp, hC.fp, ?_, hC.fb, hC.nd, ?_, hC.sub, hC.back, hC.stN, hC.stP, hC.st0, ?_⟩
      · intro g hg
        simp only [List.mem_append, List.mem_singleton] at hg
        rcases hg with hg | rfl
        · exact hC.sb g hg
        · exact hgl
      · intro g hg
        obtain ⟨a, b, c, d⟩ := hC.nw g hg
        exact ⟨List.mem_cons_of_mem _ a, b, c, d⟩
      · refine hmono (fun _ h => h) (fun _ h => h) (fun _ h => h) (fun _ h => h)
            (fun _ h => by simp [h]) (fun _ h => h) (fun _ h => h) (fun _ h => h) ⟨spec, hspec, ?_⟩
        simp only [hrel]
        exact Or.inl ⟨htmp, by simp⟩
    · rename_i htmp
      cases h
      refine ⟨hC.sp, hC.fp, hC.sb, ?_, hC.nd, ?_, hC.sub, hC.back, hC.stN, hC.stP, hC.st0, ?_⟩
      · intro g hg
        simp only [List.mem_append, List.mem_singleton] at hg
        rcases hg with hg | rfl
        · exact hC.fb g hg
        · exact hgl
      · intro g hg
        obtain ⟨a, b, c, d⟩ := hC.nw g hg
        exact ⟨List.mem_cons_of_mem _ a, b, c, d⟩
      · refine hmono (fun _ h => h) (fun _ h => h) (fun _ h => h) (fun _ h => h)
            (fun _ h => h) (fun _ h => by simp [h]) (fun _ h => h) (fun _ h => h) ⟨spec, hspec, ?_⟩
        simp only [hrel]
        exact Or.inr ⟨htmp, by simp⟩
    · cases h
  · -- undefined
    rename_i hrel
    cases h
    refine ⟨hC.sp, hC.fp, hC.sb, hC.fb, hC.nd, ?_, hC.sub, hC.back, hC.stN, hC.stP, hC.st0, ?_⟩
    · intro g hg
      obtain ⟨a, b, c, d⟩ := hC.nw g hg
      exact ⟨List.mem_cons_of_mem _ a, b, c, d⟩
    · refine hmono (fun _ h => h) (fun _ h => h) (fun _ h => h) (fun _ h => h) (fun _ h => h)
          (fun _ h => h) (fun _ h => h) (fun _ h => h) ⟨spec, hspec, ?_⟩
      simp only [hrel]
  · -- node, element
    rename_i hr1 hr2 hr3
    have hgl : isGlobalSpec fm f = .ok false := by
      rw [hgl]; congr 1; simpa using hr1
    have hpl : ∀ t : Sorted, ((spec.temporal = .constant ∧ ∃ len, (len, f) ∈ t.dm.statelessPoint) ∨
        (spec.temporal = .twoStep ∧ ∃ len, (len, f) ∈ t.dm.statefulPoint)) → Placed fm A0 t f := by
      intro t ht
      refine ⟨spec, hspec, ?_⟩
      split
      · exact absurd ‹_› hr1
      · exact absurd ‹_› hr2
      · exact absurd ‹_› hr3
      · exact ht
    split at h
    · rename_i htmp
      cases h
      refine ⟨?_, hC.fp, hC.sb, hC.fb, hC.nd, ?_, hC.sub, hC.back, hC.stN, hC.stP, hC.st0, ?_⟩
      · intro g hg
        simp only [List.mem_append, List.mem_singleton] at hg
        rcases hg with hg | rfl
        · exact hC.sp g hg
        · exact hgl
      · intro g hg
        obtain ⟨a, b, c, d⟩ := hC.nw g hg
        exact ⟨List.mem_cons_of_mem _ a, b, c, d⟩
      · exact hmono (fun _ h => h) (fun _ h => h) (fun _ h => h) (fun _ h => h)
            (fun _ h => h) (fun _ h => h) (fun _ h => by simp [h]) (fun _ h => h)
            (hpl _ (Or.inl ⟨htmp, spec.length, by simp⟩))
    · rename_i htmp
      cases h
      refine ⟨hC.sp, ?_, hC.sb, hC.fb, hC.nd, ?_, hC.sub, hC.back, hC.stN, hC.stP, hC.st0, ?_⟩
      · intro g hg
        simp only [List.mem_append, List.mem_singleton] at hg
        rcases hg with hg | rfl
        · exact hC.fp g hg
        · exact hgl
      · intro g hg
        obtain ⟨a, b, c, d⟩ := hC.nw g hg
        exact ⟨List.mem_cons_of_mem _ a, b, c, d⟩
      · exact hmono (fun _ h => h) (fun _ h => h) (fun _ h => h) (fun _ h => h)
            (fun _ h => h) (fun _ h => h) (fun _ h => h) (fun _ h => by simp [h])
            (hpl _ (Or.inr ⟨htmp, spec.length, by simp⟩))
    · cases h

theorem classifyAll_inv {fm : FieldManager} {ds : List Request} (hR : Rep fm ds) {dm0 : DataManager}
    {A0 : List Nat} (fs : List Nat) {done : List Nat} {s s' : Sorted} (hC : CI fm dm0 A0 done s)
    (hn : fs.Nodup) (hd : ∀ f ∈ fs, f ∉ done) (h : classifyAll fm fs s = .ok s') :
    ∃ done', (∀ f, f ∈ done' ↔ f ∈ done ∨ f ∈ fs) ∧ CI fm dm0 A0 done' s' := by
  induction fs generalizing done s with
  | nil =>
    simp only [classifyAll] at h
    cases h
    exact ⟨done, by simp, hC⟩
  | cons f fs ih =>
    simp only [classifyAll] at h
    split at h <;> try cases h
    rename_i s1 hs1
    rw [List.nodup_cons] at hn
    have h1 := classify_inv hR hC (hd f (by simp)) hs1
    obtain ⟨done', hm, hC'⟩ := ih h1 hn.2 (fun g hg => by
      rw [List.mem_cons, not_or]
      exact ⟨by rintro rfl; exact hn.1 hg, hd g (List.mem_cons_of_mem _ hg)⟩) h
    refine ⟨done', ?_, hC'⟩
    intro g
    rw [hm g]
    simp only [List.mem_cons]
    tauto

theorem mem_entries {ps : List (Length × Nat)} {e : Length × List Nat} (he : e ∈ entries ps) :
    ∀ f ∈ e.2, (e.1, f) ∈ ps := by
  unfold entries at he
  rw [List.mem_filter, List.mem_map] at he
  obtain ⟨⟨len, -, rfl⟩, -⟩ := he
  intro f hf
  simp only [idsOfLength, List.mem_map, List.mem_filter] at hf
  obtain ⟨⟨l, g⟩, ⟨h1, h2⟩, rfl⟩ := hf
  simp at h2
  subst h2
  exact h1

theorem exists_entry {ps : List (Length × Nat)} {len : Length} {f : Nat} (h : (len, f) ∈ ps) :
    ∃ e ∈ entries ps, f ∈ e.2 := by
  have hf : f ∈ idsOfLength ps len := by
    simp only [idsOfLength, List.mem_map, List.mem_filter]
    exact ⟨(len, f), ⟨h, by simp⟩, rfl⟩
  refine ⟨(len, idsOfLength ps len), ?_, hf⟩
  unfold entries
  rw [List.mem_filter, List.mem_map]
  refine ⟨⟨len, ?_, rfl⟩, ?_⟩
  · cases len <;> decide
  · simp only [ne_eq, decide_not, Bool.not_eq_eq_eq_not, Bool.not_true, decide_eq_false_iff_not]
    intro he
    rw [he] at hf
    cases hf

/-- Data exist for the field at the steps that its temporal kind prescribes. -/
def Allocated (w : World α) (dm : DataManager) (f : Nat) (spec : FieldSpec) : Prop :=
  match spec.relation with
  | .global =>
    (spec.temporal = .constant → (w.globalData.lookup (f, Step.none)).isSome) ∧
    (spec.temporal = .twoStep → (w.globalData.lookup (f, Step.n)).isSome ∧
      (w.globalData.lookup (f, Step.np1)).isSome)
  | .undefined => True
  | _ =>
    (spec.temporal = .constant → ∃ st, dm.stateNONE = some st ∧ (st.ref f).isSome) ∧
    (spec.temporal = .twoStep → (∃ st, dm.stateN = some st ∧ (st.ref f).isSome) ∧
      (∃ st, dm.stateNP1 = some st ∧ (st.ref f).isSome))

def famOf (S : Family) (b : Nat) (dm : DataManager) : Family :=
  fun b' s => if b' = b then stateOf dm s else S b' s

/-- Global fields already allocated have their data. -/
def GlobalsComplete (w : World α) : Prop :=
  ∀ f ∈ w.allGlobalFieldIds, ∃ spec, Field.getFieldSpec w.fm f = .ok spec ∧
    spec.relation = .global ∧
    (spec.temporal = .constant → (w.globalData.lookup (f, Step.none)).isSome) ∧
    (spec.temporal = .twoStep → (w.globalData.lookup (f, Step.n)).isSome ∧
      (w.globalData.lookup (f, Step.np1)).isSome)

theorem allocateData_inv [Zero α] {w w' : World α} {S : Family} (hI : WInv w S)
    (hG : GlobalsComplete w) {b : Nat}
    (hS : ∀ s, S b s = none) {m : Maps} {ids : List Nat} {dm : DataManager}
    (h : allocateData w (setMaps DataManager.new m) ids = .ok (w', dm)) :
    WInv w' (famOf S b dm) ∧ Frame w w' ∧ GlobalsComplete w' ∧
      (∀ f ∈ ids, ∃ spec, Field.getFieldSpec w.fm f = .ok spec ∧ Allocated w' dm f spec) := by
  obtain ⟨ds, hR⟩ := hI.rep
  unfold allocateData at h
  split at h <;> try cases h
  rename_i s hs
  simp only at h
  have hC0 : CI w.fm (setMaps DataManager.new m) w.allGlobalFieldIds []
      ⟨setMaps DataManager.new m, w.allGlobalFieldIds, [], [], [], []⟩ := by
    refine ⟨?_, ?_, ?_, ?_, ?_, ?_, fun _ h => h, fun _ h => Or.inl h, rfl, rfl, rfl, ?_⟩
    all_goals simp [setMaps, DataManager.new, news]
  obtain ⟨done, hdone, hC⟩ := classifyAll_inv hR (sortUnique ids) hC0 (nodup_sortUnique _)
    (by simp) hs
  split_ifs at h with hc1 hc2
  split at h <;> try cases h
  rename_i w1 hw1
  split at h <;> try cases h
  rename_i w2 dm2 hw2
  -- global section
  set w0 : World α := { w with allGlobalFieldIds := s.allGlobal } with hw0
  have hI0 : WInv w0 S := by
    refine ⟨hI.rep, hI.inj, hI.bound, hI.agree, hI.locNot, ?_, hI.pairS, hI.pairV, hI.covered,
      hI.covered'⟩
    intro f t r hk
    obtain ⟨a, b⟩ := hI.globIs f t r hk
    exact ⟨a, hC.sub f b⟩
  have hno : ∀ f ∈ news s, ∀ t, w0.globalData.lookup (f, t) = none := by
    intro f hf t
    cases hx : w0.globalData.lookup (f, t) with
    | none => rfl
    | some r => exact absurd (hI.globIs f t r hx).2 (hC.nw f hf).2.2.2
  have hglob : WInv w1 S ∧ Frame w0 w1 ∧ w1.allGlobalFieldIds = s.allGlobal ∧
      (∀ f, f ∈ s.slScalar ∨ f ∈ s.slVector → (w1.globalData.lookup (f, Step.none)).isSome) ∧
      (∀ f, f ∈ s.sfScalar ∨ f ∈ s.sfVector → (w1.globalData.lookup (f, Step.n)).isSome ∧
        (w1.globalData.lookup (f, Step.np1)).isSome) := by
    unfold allocGlobals at hw1
    split_ifs at hw1 with hpos hcomm
    · cases hw1
      have hnd := hC.nd
      unfold news at hnd
      have hnd' := hnd
      rw [List.nodup_append, List.nodup_append, List.nodup_append] at hnd
      obtain ⟨⟨⟨n1, n2, d12⟩, n3, d123⟩, n4, d1234⟩ := hnd
      have m1 : ∀ f ∈ s.slScalar, f ∈ news s := fun f hf => by simp [news, hf]
      have m2 : ∀ f ∈ s.sfScalar, f ∈ news s := fun f hf => by simp [news, hf]
      have m3 : ∀ f ∈ s.slVector, f ∈ news s := fun f hf => by simp [news, hf]
      have m4 : ∀ f ∈ s.sfVector, f ∈ news s := fun f hf => by simp [news, hf]
      obtain ⟨i1, f1, g1, l1, c1⟩ := foldl_global (globalAlloc_none (α := α) false) s.slScalar hI0 n1
        (fun f hf => hno f (m1 f hf)) (fun f hf => (hC.nw f (m1 f hf)).2.1)
        (fun f hf => (hC.nw f (m1 f hf)).2.2.1)
      obtain ⟨i2, f2, g2, l2, c2⟩ := foldl_global (globalAlloc_two (α := α) false) s.sfScalar i1 n2
        (fun f hf t => by
          rw [l1 _ (fun h => d12 f h f hf rfl)]
          exact hno f (m2 f hf) t)
        (fun f hf => by rw [f1.fm]; exact (hC.nw f (m2 f hf)).2.1)
        (fun f hf => by rw [g1]; exact (hC.nw f (m2 f hf)).2.2.1)
      obtain ⟨i3, f3, g3, l3, c3⟩ := foldl_global (globalAlloc_none (α := α) true) s.slVector i2 n3
        (fun f hf t => by
          rw [l2 _ (fun h => d123 f (by simp [h]) f hf rfl),
            l1 _ (fun h => d123 f (by simp [h]) f hf rfl)]
          exact hno f (m3 f hf) t)
        (fun f hf => by rw [f2.fm, f1.fm]; exact (hC.nw f (m3 f hf)).2.1)
        (fun f hf => by rw [g2, g1]; exact (hC.nw f (m3 f hf)).2.2.1)
      obtain ⟨i4, f4, g4, l4, c4⟩ := foldl_global (globalAlloc_two (α := α) true) s.sfVector i3 n4
        (fun f hf t => by
          rw [l3 _ (fun h => d1234 f (by simp [h]) f hf rfl),
            l2 _ (fun h => d1234 f (by simp [h]) f hf rfl),
            l1 _ (fun h => d1234 f (by simp [h]) f hf rfl)]
          exact hno f (m4 f hf) t)
        (fun f hf => by rw [f3.fm, f2.fm, f1.fm]; exact (hC.nw f (m4 f hf)).2.1)
        (fun f hf => by rw [g3, g2, g1]; exact (hC.nw f (m4 f hf)).2.2.1)
      have keep : ∀ {u v : World α} (_ : Frame u v) {k}, (u.globalData.lookup k).isSome →
          (v.globalData.lookup k).isSome := by
        intro u v hF k hk
        obtain ⟨r, hr⟩ := Option.isSome_iff_exists.1 hk
        rw [hF.look k r hr]; rfl
      refine ⟨i4, ((f1.trans f2).trans f3).trans f4, g4.trans (g3.trans (g2.trans g1)), ?_, ?_⟩
      · rintro f (hf | hf)
        · exact keep f4 (keep f3 (keep f2 (c1 f hf _ (by simp))))
        · exact keep f4 (c3 f hf _ (by simp))
      · rintro f (hf | hf)
        · exact ⟨keep f4 (keep f3 (c2 f hf _ (by simp))), keep f4 (keep f3 (c2 f hf _ (by simp)))⟩
        · exact ⟨c4 f hf _ (by simp), c4 f hf _ (by simp)⟩
    · injection hw1 with hw1
      rw [← hw1]
      refine ⟨hI0, Frame.refl _, rfl, ?_, ?_⟩
      · rintro f (hf | hf) <;> have := List.length_pos_of_mem hf <;> omega
      · rintro f (hf | hf) <;> have := List.length_pos_of_mem hf <;> omega
  obtain ⟨hI1, hF1, hG1, hgn, hgt⟩ := hglob
  -- stateless section
  set dm0 : DataManager := { s.dm with allFieldIds := s.dm.allFieldIds ++ s.allGlobal } with hdm0
  have hst0 : s.dm.stateNONE = none := hC.st0
  have hstN : s.dm.stateN = none := hC.stN
  have hstP : s.dm.stateNP1 = none := hC.stP
  have hless : ∃ S1, WInv w2 S1 ∧ Frame w1 w2 ∧ w2.allGlobalFieldIds = w1.allGlobalFieldIds ∧
      w2.globalData = w1.globalData ∧
      (∀ b' s', S1 b' s' = if b' = b ∧ s' = Step.none then dm2.stateNONE else S b' s') ∧
      dm2.statefulPoint = dm0.statefulPoint ∧ dm2.statefulBond = dm0.statefulBond ∧
      dm2.stateN = none ∧ dm2.stateNP1 = none ∧
      (∀ p ∈ s.dm.statelessPoint, ∃ st, dm2.stateNONE = some st ∧ (st.ref p.2).isSome) ∧
      (∀ f ∈ s.dm.statelessBond, ∃ st, dm2.stateNONE = some st ∧ (st.ref f).isSome) := by
    unfold allocStateless at hw2
    split_ifs at hw2 with he
    · injection hw2 with hw2
      injection hw2 with e1 e2
      rw [← e1, ← e2]
      refine ⟨S, hI1, Frame.refl _, rfl, rfl, ?_, rfl, rfl, hstN, hstP, ?_, ?_⟩
      · intro b' s'
        split_ifs with hh
        · rw [hh.1, hh.2, hS]; exact hst0.symm
        · rfl
      · intro p hp; rw [show s.dm.statelessPoint = [] from he.1] at hp; cases hp
      · intro p hp; rw [show s.dm.statelessBond = [] from he.2] at hp; cases hp
    · split at hw2 <;> try cases hw2
      rename_i wa sta hwa
      split at hw2 <;> try cases hw2
      rename_i wb hwb
      have hn := upd_new_inv hI1 b Step.none (hS _)
      obtain ⟨ia, fa, ga, da, -, ca⟩ := allocPoints_inv _ hn (fun e he f hf => by
        rw [hF1.fm]
        exact hC.sp _ (mem_entries he f hf)) hwa
      obtain ⟨ib, fb, gb, db, kb, cb⟩ := allocBond_inv ia (upd_same _ _ _ _) (fun f hf => by
        rw [fa.fm, hF1.fm]
        exact hC.sb f hf) hwb
      rw [upd_upd] at ib
      refine ⟨_, ib, fa.trans fb, gb.trans ga, db.trans da, fun b' s' => rfl, rfl, rfl, hstN, hstP,
        ?_, ?_⟩
      · intro p hp
        obtain ⟨e, he, hf⟩ := exists_entry (len := p.1) (f := p.2) hp
        exact ⟨_, rfl, kb _ (ca e he _ hf)⟩
      · intro f hf
        exact ⟨_, rfl, cb f hf⟩
  obtain ⟨S1, hI2, hF2, hG2, hD2, hS1, hp2, hb2, hN2, hP2, hcp, hcb⟩ := hless
  -- stateful section
  have hS1n : S1 b .n = none := by rw [hS1]; simp [hS]
  have hS1p : S1 b .np1 = none := by rw [hS1]; simp [hS]
  have hful : ∃ S2, WInv w' S2 ∧ Frame w2 w' ∧ w'.allGlobalFieldIds = w2.allGlobalFieldIds ∧
      w'.globalData = w2.globalData ∧ dm.stateNONE = dm2.stateNONE ∧
      (∀ b' s', S2 b' s' = if b' = b ∧ s' = Step.np1 then dm.stateNP1 else
        if b' = b ∧ s' = Step.n then dm.stateN else S1 b' s') ∧
      (∀ p ∈ s.dm.statefulPoint, (∃ st, dm.stateN = some st ∧ (st.ref p.2).isSome) ∧
        ∃ st, dm.stateNP1 = some st ∧ (st.ref p.2).isSome) ∧
      (∀ f ∈ s.dm.statefulBond, (∃ st, dm.stateN = some st ∧ (st.ref f).isSome) ∧
        ∃ st, dm.stateNP1 = some st ∧ (st.ref f).isSome) := by
    unfold allocStateful at h
    split_ifs at h with he
    · cases h
      refine ⟨S1, hI2, Frame.refl _, rfl, rfl, rfl, ?_, ?_, ?_⟩
      · intro b' s'
        split_ifs with hh hh'
        · rw [hh.1, hh.2, hS1p, hP2]
        · rw [hh'.1, hh'.2, hS1n, hN2]
        · rfl
      · intro p hp
        have : s.dm.statefulPoint = [] := hp2.symm.trans he.1
        rw [this] at hp; cases hp
      · intro p hp
        have : s.dm.statefulBond = [] := hb2.symm.trans he.2
        rw [this] at hp; cases hp
    · split at h <;> try cases h
      rename_i wa stNa stPa hwa
      split at h <;> try cases h
      rename_i wb stNb hwb
      split at h <;> try cases h
      rename_i stPc hwc
      have hn := upd_new_inv (upd_new_inv hI2 b Step.n hS1n) b Step.np1
        (by rw [upd_ne _ _ (by simp)]; exact hS1p)
      have hfm : w2.fm = w.fm := hF2.fm.trans hF1.fm
      obtain ⟨ia, fa, ga, da, -, -, ca⟩ := allocPoints2_inv _ hn (fun e he f hf => by
        rw [hfm]
        rw [hp2] at he
        exact hC.fp _ (mem_entries he f hf)) hwa
      obtain ⟨ib, fb, gb, db, kb, cb⟩ := allocBond_inv (b := b) (s := Step.n) ia
        (by rw [upd_ne _ _ (by simp), upd_same]) (fun f hf => by
        rw [fa.fm, hfm]
        rw [hb2] at hf
        exact hC.fb f hf) hwb
      obtain ⟨ic, fc, gc, dc, kc, cc⟩ := allocBond_inv (b := b) (s := Step.np1) ib
        (by rw [upd_ne _ _ (by simp), upd_same]) (fun f hf => by
        rw [fb.fm, fa.fm, hfm]
        rw [hb2] at hf
        exact hC.fb f hf) hwc
      refine ⟨_, ic, (fa.trans fb).trans fc, gc.trans (gb.trans ga), dc.trans (db.trans da), rfl,
        ?_, ?_, ?_⟩
      · intro b' s'
        simp only [upd]
        split_ifs <;> rfl
      · intro p hp
        rw [show s.dm.statefulPoint = dm2.statefulPoint from hp2.symm] at hp
        obtain ⟨e, he, hf⟩ := exists_entry (len := p.1) (f := p.2) hp
        obtain ⟨a1, a2⟩ := ca e he _ hf
        exact ⟨⟨_, rfl, kb _ a1⟩, ⟨_, rfl, kc _ a2⟩⟩
      · intro f hf
        rw [show s.dm.statefulBond = dm2.statefulBond from hb2.symm] at hf
        exact ⟨⟨_, rfl, cb f hf⟩, ⟨_, rfl, cc f hf⟩⟩
  obtain ⟨S2, hI3, hF3, hG3, hD3, hN0, hS2, hcp2, hcb2⟩ := hful
  have hfam : S2 = famOf S b dm := by
    funext b' s'
    rw [hS2, hS1]
    unfold famOf
    by_cases hb : b' = b
    · subst hb
      cases s' <;> simp [stateOf, hS, hN0]
    · simp [hb]
  rw [hfam] at hI3
  have hF0 : Frame w w0 := ⟨rfl, Nat.le_refl _, fun _ _ => rfl, fun _ _ h => h⟩
  have hF : Frame w w' := ((hF0.trans hF1).trans hF2).trans hF3
  have hD : w'.globalData = w1.globalData := hD3.trans hD2
  have hGl : ∀ f ∈ s.allGlobal, ∃ spec, Field.getFieldSpec w.fm f = .ok spec ∧
      spec.relation = .global ∧
      (spec.temporal = .constant → (w'.globalData.lookup (f, Step.none)).isSome) ∧
      (spec.temporal = .twoStep → (w'.globalData.lookup (f, Step.n)).isSome ∧
        (w'.globalData.lookup (f, Step.np1)).isSome) := by
    have keep : ∀ {k}, (w.globalData.lookup k).isSome → (w'.globalData.lookup k).isSome := by
      intro k hk
      obtain ⟨r, hr⟩ := Option.isSome_iff_exists.1 hk
      rw [hF.look k r hr]; rfl
    intro f hf
    by_cases hA : f ∈ w.allGlobalFieldIds
    · obtain ⟨spec, h1, h2, h3, h4⟩ := hG f hA
      exact ⟨spec, h1, h2, fun h => keep (h3 h), fun h => ⟨keep (h4 h).1, keep (h4 h).2⟩⟩
    · have hnw : f ∈ news s := (hC.back f hf).resolve_left hA
      obtain ⟨hdn, hgt', -, -⟩ := hC.nw f hnw
      obtain ⟨spec, hsp, hm⟩ := hC.placed f hdn
      have hrel : spec.relation = .global := by
        have := isGlobal_of_spec hR hsp
        rw [hgt'] at this
        have := Outcome.ok.inj this
        simpa using this.symm
      refine ⟨spec, hsp, hrel, ?_⟩
      rw [hrel] at hm
      simp only at hm
      rw [hD]
      rcases hm with hm | ⟨ht, hm⟩ | ⟨ht, hm⟩
      · exact absurd hm hA
      · exact ⟨fun _ => hgn f hm, fun h => by rw [ht] at h; cases h⟩
      · exact ⟨fun h => by (rw [ht] at h; cases h), fun _ => hgt f hm⟩
  refine ⟨hI3, hF, ?_, ?_⟩
  · intro f hf
    rw [hG3, hG2, hG1] at hf
    rw [hF.fm]
    exact hGl f hf
  · intro f hf
    have hdn : f ∈ done := (hdone f).2 (Or.inr (mem_sortUnique.2 hf))
    obtain ⟨spec, hsp, hm⟩ := hC.placed f hdn
    refine ⟨spec, hsp, ?_⟩
    unfold Allocated
    split at hm
    · rename_i hrel
      have hfa : f ∈ s.allGlobal := by
        rcases hm with hm | ⟨-, hm | hm⟩ | ⟨-, hm | hm⟩
        · exact hC.sub f hm
        all_goals exact (hC.nw f (by simp [news, hm])).2.2.1
      obtain ⟨spec', h1, h2, h3⟩ := hGl f hfa
      rw [hsp] at h1
      cases h1
      simp only [hrel]
      exact h3
    · rename_i hrel
      simp only [hrel]
      rcases hm with ⟨ht, hm⟩ | ⟨ht, hm⟩
      · refine ⟨fun _ => ?_, fun h => by rw [ht] at h; cases h⟩
        rw [hN0]; exact hcb f hm
      · exact ⟨fun h => by (rw [ht] at h; cases h), fun _ => hcb2 f hm⟩
    · rename_i hrel
      simp only [hrel]
    · rename_i h1 h2 h3
      split
      · exact absurd ‹_› h1
      · trivial
      · rcases hm with ⟨ht, len, hm⟩ | ⟨ht, len, hm⟩
        · refine ⟨fun _ => ?_, fun h => by rw [ht] at h; cases h⟩
          rw [hN0]; exact hcp _ hm
        · exact ⟨fun h => by (rw [ht] at h; cases h), fun _ => hcp2 _ hm⟩

end Verif.Data
