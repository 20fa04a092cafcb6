import Verif.Record.Registry
import Verif.Setup.ComputeProps

/-!
# Lemmas for C248: the objects of an analysis
-/

namespace Verif.Record

open Verif Verif.Field Verif.Setup

variable {Q : Type}

/-- The name and the parameters of an entry. -/
def entryParams {P : Type} : ClassEntry P → Option (String × P)
  | .params n p => some (underscored n, p)
  | _ => none

theorem params_list {P : Type} (cps : List (ClassEntry P)) (acc acc' : List (String × P))
    (h : cps.foldlM (fun (acc : List (String × P)) (e : ClassEntry P) =>
      (match e with
      | .value => .fail .runtimeError
      | .noClass => .fail .runtimeError
      | .params name p => .ok (acc ++ [(underscored name, p)]) : Outcome (List (String × P)))) acc = .ok acc') :
    acc' = acc ++ cps.filterMap entryParams := by
  induction cps generalizing acc with
  | nil =>
    cases BC.ok_inj h
    simp
  | cons e cps ih =>
    obtain ⟨a, h1, h2⟩ := BC.foldlM_cons_ok.1 h
    rw [ih a h2]
    cases e with
    | value => cases h1
    | noClass => cases h1
    | params n q =>
      cases h1
      simp [entryParams]

theorem registry_reduces : ∀ r ∈ registry, reduces r.2 = true → r.1 ∈ reductions := by decide

theorem registry_computing : ∀ r ∈ registry, r.1 ∈ computing ∨ reduces r.2 = true ∨
    r.2 ∉ (assignTable (Q := Unit) []).map Prod.fst := by decide

theorem assignTable_names (mat : List String) :
    (assignTable (Q := Q) mat).map Prod.fst = (assignTable (Q := Unit) []).map Prod.fst := rfl

theorem classAssigns_nil {mat : List String} {cls : String} (h : cls ∉ (assignTable (Q := Unit) []).map Prod.fst) :
    classAssigns (Q := Q) mat cls = [] := by
  rw [classAssigns]
  split
  · next e he =>
    refine absurd ?_ h
    rw [← assignTable_names (Q := Q) mat]
    have h1 := List.find?_some he
    simp only [decide_eq_true_eq] at h1
    rw [← h1]
    exact List.mem_map_of_mem (List.mem_of_find?_eq_some he)
  · rfl

theorem label_one (k : String) (p : Params Q) :
    (objectsFor (k, some p)).filterMap objectLabel = if k ∈ reductions then [p.label] else [] := by
  split
  · next h =>
    simp only [reductions, List.mem_cons, List.not_mem_nil, or_false] at h
    rcases h with rfl | rfl | rfl <;> rfl
  · next h =>
    rw [List.filterMap_eq_nil_iff]
    intro o ho
    rw [objectsFor] at ho
    obtain ⟨r, hr, rfl⟩ := List.mem_map.1 ho
    obtain ⟨hr, hk⟩ := List.mem_filter.1 hr
    rw [objectLabel, if_neg]
    intro hred
    have hk : r.1 = k := of_decide_eq_true hk
    exact h (hk ▸ registry_reduces r hr hred)

theorem labels_objects (cps : List (ClassEntry (Params Q))) :
    (((cps.filterMap entryParams).map fun x => (x.1, some x.2)).flatMap objectsFor).filterMap objectLabel =
      labels cps := by
  induction cps with
  | nil => rfl
  | cons e cps ih =>
    cases e with
    | value => exact ih
    | noClass => exact ih
    | params n p =>
      have he : entryParams (ClassEntry.params n p) = some (underscored n, p) := rfl
      rw [List.filterMap_cons_some he, List.map_cons, List.flatMap_cons, List.filterMap_append, ih, label_one]
      rw [labels, labels, List.filterMap_cons]
      by_cases hk : underscored n ∈ reductions
      · simp only [if_pos hk]
        rfl
      · simp only [if_neg hk]
        rfl

theorem register_params (l : List (ComputeObject (Params Q))) (fm fm' : FieldManager)
    (h : l.foldlM register fm = .ok fm') : ∀ o ∈ l, reduces o.cls = true → o.params ≠ none := by
  induction l generalizing fm with
  | nil => exact fun o ho => absurd ho (List.not_mem_nil)
  | cons x l ih =>
    obtain ⟨f, h1, h2⟩ := BC.foldlM_cons_ok.1 h
    intro o ho hr hn
    rcases List.mem_cons.1 ho with rfl | ho
    · rw [register, if_pos hr, hn] at h1
      cases h1
    · exact ih f h2 o ho hr hn

/-- All assignments of an analysis, in their order: what an assignment writes is not written or read before, or the
assignment is a repetition. -/
theorem prepare_good {valid : String → Params Q → Bool} {more : List Request} {entries : List (String × OutEntry)}
    {cps : List (ClassEntry (Params Q))} {mat : List String} {objects : List (ComputeObject (Params Q))}
    {fm : FieldManager} (h : prepare valid more entries cps = .ok (objects, fm)) (ho : OnlyReductions cps)
    (hl : NewLabels more cps) (hm : MaterialFields more mat) : Good [] (objects.flatMap (assigns mat)) := by
  rw [prepare] at h
  obtain ⟨⟨ids, fm0⟩, h1, h⟩ := Outcome.bind_eq_ok.1 h
  obtain ⟨obs, h2, h⟩ := Outcome.bind_eq_ok.1 h
  obtain ⟨fm1, h3, h⟩ := Outcome.bind_eq_ok.1 h
  cases h
  obtain ⟨vars, params, _, h4, rfl⟩ := computeManager_ok h2
  have hp := params_list cps [] params h4
  rw [List.nil_append] at hp
  subst hp
  have hpar := register_params _ _ _ h3
  rw [toBuild, List.flatMap_append] at h3 hpar ⊢
  obtain ⟨fA, h5, h6⟩ := BC.foldlM_append_ok.1 h3
  have hA : ∀ o ∈ (((vars.map underscored).filter fun n =>
      n ∉ (cps.filterMap entryParams).map Prod.fst).map (fun n => ((n, none) : String × Option (Params Q)))).flatMap
        objectsFor, reduces o.cls = false := by
    intro o ho'
    by_contra hr
    refine hpar o (List.mem_append_left _ ho') (by simpa using hr) ?_
    obtain ⟨x, hx, hox⟩ := List.mem_flatMap.1 ho'
    obtain ⟨n, _, rfl⟩ := List.mem_map.1 hx
    rw [objectsFor] at hox
    obtain ⟨r, _, rfl⟩ := List.mem_map.1 hox
    rfl
  have hmt : ∀ d ∈ mat, d ∉ targets := fun d hd => (hm d hd).2
  obtain ⟨g1, g2⟩ := class_objects hmt _ hA [] (by constructor <;> simp)
  rw [List.flatMap_append, good_append]
  refine ⟨g1, reduction_objects (base := (analysisFields ++ more).map Request.label) _ ?_ _ fA fm [] ⟨?_, ?_⟩ h6 ?_ ?_⟩
  · intro o ho'
    obtain ⟨x, hx, hox⟩ := List.mem_flatMap.1 ho'
    obtain ⟨⟨k, p⟩, hk, rfl⟩ := List.mem_map.1 hx
    obtain ⟨e, he, hek⟩ := List.mem_filterMap.1 hk
    rw [objectsFor] at hox
    obtain ⟨r, hr, rfl⟩ := List.mem_map.1 hox
    obtain ⟨hreg, hrk⟩ := List.mem_filter.1 hr
    have hrk : r.1 = k := of_decide_eq_true hrk
    cases e with
    | value => cases hek
    | noClass => cases hek
    | params n q =>
      cases hek
      rcases registry_computing r hreg with hc | hc | hc
      · exact absurd (hrk ▸ hc) (ho n p he)
      · exact .inl hc
      · exact .inr (classAssigns_nil hc)
  · intro a ha
    rw [List.nil_append] at ha g2
    have hat := g2.1 a ha
    refine ⟨.inr (.inl (targets_fields _ (target_mem hat))), fun d hd => ?_⟩
    rcases table_deps hat d hd with h | h | h
    · exact .inl (hm d h).1
    · refine .inl ?_
      rw [List.map_append]
      exact List.mem_append_left _ h
    · exact .inr (.inl h)
  · intro l hl'
    refine (names_classes _ hA fm0 fA h5 (fun l hl => ?_) l hl').imp_right .inl
    rcases names_run _ _ _ h1 l hl with h | h
    · exact absurd h (by simp [names, FieldManager.empty])
    · exact .inl h
  · rw [List.nil_append, labels_objects]
    exact hl.1
  · rw [labels_objects]
    exact hl.2

end Verif.Record
