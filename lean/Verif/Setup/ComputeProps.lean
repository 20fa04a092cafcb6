import Verif.Setup.ComputeSpec
import Verif.Setup.Props
import Verif.BC.Lemmas

/-!
# Property C155: the quantities that are computed for output
-/

noncomputable section

namespace Verif.Setup

open Verif
open scoped Classical

/-! ### Helper lemmas -/

theorem mem_addVariables (names acc : List String) (v : String) :
    v ∈ addVariables acc names ↔ v ∈ acc ∨ v ∈ names := by
  induction names generalizing acc with
  | nil => simp [addVariables]
  | cons n names ih =>
    have : addVariables acc (n :: names) = addVariables (if n ∈ acc then acc else acc ++ [n]) names := rfl
    rw [this, ih]
    split
    · next h =>
      simp only [List.mem_cons]
      constructor
      · rintro (a | a)
        · exact .inl a
        · exact .inr (.inr a)
      · rintro (a | rfl | a)
        · exact .inl a
        · exact .inl h
        · exact .inr a
    · simp [or_assoc]

theorem addVariables_nodup (names acc : List String) (h : acc.Nodup) : (addVariables acc names).Nodup := by
  induction names generalizing acc with
  | nil => exact h
  | cons n names ih =>
    have : addVariables acc (n :: names) = addVariables (if n ∈ acc then acc else acc ++ [n]) names := rfl
    rw [this]
    apply ih
    split
    · exact h
    · next hn =>
      rw [List.nodup_append]
      refine ⟨h, List.nodup_singleton _, ?_⟩
      intro a ha b hb hab
      rw [List.mem_singleton] at hb
      subst hb hab
      exact hn ha

theorem addVariables_filter (K : String → Bool) (names acc : List String) :
    (addVariables acc names).filter K = addVariables (acc.filter K) (names.filter K) := by
  induction names generalizing acc with
  | nil => rfl
  | cons n names ih =>
    have h1 : addVariables acc (n :: names) = addVariables (if n ∈ acc then acc else acc ++ [n]) names := rfl
    rw [h1, ih, List.filter_cons]
    by_cases hk : K n = true
    · rw [if_pos hk]
      have h2 : addVariables (acc.filter K) (n :: names.filter K) =
        addVariables (if n ∈ acc.filter K then acc.filter K else acc.filter K ++ [n]) (names.filter K) := rfl
      rw [h2]
      congr 1
      by_cases hn : n ∈ acc
      · rw [if_pos hn, if_pos (List.mem_filter.2 ⟨hn, hk⟩)]
      · rw [if_neg hn, if_neg (fun h => hn (List.mem_filter.1 h).1), List.filter_append, List.filter_cons, if_pos hk]
        rfl
    · rw [if_neg hk]
      congr 1
      by_cases hn : n ∈ acc
      · rw [if_pos hn]
      · rw [if_neg hn, List.filter_append, List.filter_cons, if_neg hk]
        simp

/-- One pass of the loop over the entries. -/
def collectStep (acc : List String) (e : String × OutEntry) : Outcome (List String) :=
  if contains "Output" e.1 = true then
    match e.2 with
    | .value => .fail .runtimeError
    | .noVariables => .ok acc
    | .variablesValue => .fail .runtimeError
    | .vars names => .ok (addVariables acc names)
  else .ok acc

theorem collectOutput_eq (entries : List (String × OutEntry)) : collectOutput entries = entries.foldlM collectStep [] := rfl

theorem collect_mem (entries : List (String × OutEntry)) (acc acc' : List String)
    (h : entries.foldlM collectStep acc = .ok acc') (v : String) : v ∈ acc' ↔ v ∈ acc ∨ Requested entries v := by
  induction entries generalizing acc with
  | nil =>
    cases BC.ok_inj h
    simp [Requested]
  | cons e entries ih =>
    obtain ⟨a, h1, h2⟩ := BC.foldlM_cons_ok.1 h
    rw [ih a h2]
    obtain ⟨name, en⟩ := e
    have hreq : Requested ((name, en) :: entries) v ↔
        (∃ names, en = .vars names ∧ "Output".toList <:+: name.toList ∧ v ∈ names) ∨ Requested entries v := by
      constructor
      · rintro ⟨n, ns, hm, ho, hv⟩
        rcases List.mem_cons.1 hm with hm | hm
        · cases hm
          exact .inl ⟨ns, rfl, ho, hv⟩
        · exact .inr ⟨n, ns, hm, ho, hv⟩
      · rintro (⟨ns, rfl, ho, hv⟩ | ⟨n, ns, hm, ho, hv⟩)
        · exact ⟨name, ns, List.mem_cons_self .., ho, hv⟩
        · exact ⟨n, ns, List.mem_cons_of_mem _ hm, ho, hv⟩
    rw [hreq, ← or_assoc]
    apply or_congr _ Iff.rfl
    rw [collectStep] at h1
    split at h1
    · next hc =>
      simp only [contains_iff] at hc
      cases en with
      | value => cases h1
      | variablesValue => cases h1
      | noVariables =>
        cases h1
        simp
      | vars names =>
        cases h1
        rw [mem_addVariables]
        simp only [OutEntry.vars.injEq]
        constructor
        · rintro (a | a)
          · exact .inl a
          · exact .inr ⟨names, rfl, hc, a⟩
        · rintro (a | ⟨_, rfl, _, a⟩)
          · exact .inl a
          · exact .inr a
    · next hc =>
      cases h1
      simp only [contains_iff] at hc
      constructor
      · exact .inl
      · rintro (a | ⟨_, _, b, _⟩)
        · exact a
        · exact absurd b hc

theorem collect_nodup (entries : List (String × OutEntry)) (acc acc' : List String) (hn : acc.Nodup)
    (h : entries.foldlM collectStep acc = .ok acc') : acc'.Nodup := by
  induction entries generalizing acc with
  | nil =>
    cases BC.ok_inj h
    exact hn
  | cons e entries ih =>
    obtain ⟨a, h1, h2⟩ := BC.foldlM_cons_ok.1 h
    refine ih a ?_ h2
    rw [collectStep] at h1
    split at h1
    · split at h1
      · cases h1
      · cases h1
        exact hn
      · cases h1
      · cases h1
        exact addVariables_nodup _ _ hn
    · cases h1
      exact hn

theorem params_eq {P : Type} (cps : List (ClassEntry P)) (acc acc' : List (String × P))
    (h : cps.foldlM (fun (acc : List (String × P)) (e : ClassEntry P) =>
      (match e with
      | .value => .fail .runtimeError
      | .noClass => .fail .runtimeError
      | .params name p => .ok (acc ++ [(underscored name, p)]) : Outcome (List (String × P)))) acc = .ok acc') (key : String) (p : P) :
    (key, p) ∈ acc' ↔ (key, p) ∈ acc ∨ HasParams cps key p := by
  induction cps generalizing acc with
  | nil =>
    cases BC.ok_inj h
    simp [HasParams]
  | cons e cps ih =>
    obtain ⟨a, h1, h2⟩ := BC.foldlM_cons_ok.1 h
    rw [ih a h2]
    cases e with
    | value => cases h1
    | noClass => cases h1
    | params n q =>
      cases h1
      have hreq : HasParams (.params n q :: cps) key p ↔ (p = q ∧ NameFor n key) ∨ HasParams cps key p := by
        constructor
        · rintro ⟨m, hm, hk⟩
          rcases List.mem_cons.1 hm with hm | hm
          · cases hm
            exact .inl ⟨rfl, hk⟩
          · exact .inr ⟨m, hm, hk⟩
        · rintro (⟨rfl, hk⟩ | ⟨m, hm, hk⟩)
          · exact ⟨n, List.mem_cons_self .., hk⟩
          · exact ⟨m, List.mem_cons_of_mem _ hm, hk⟩
      rw [hreq, List.mem_append, List.mem_singleton, or_assoc]
      apply or_congr Iff.rfl
      apply or_congr _ Iff.rfl
      rw [Prod.mk.injEq, NameFor]
      exact ⟨fun h => ⟨h.2, h.1.symm⟩, fun h => ⟨h.2.symm, h.1⟩⟩

/-- One pass of the loop over the registered classes. -/
def buildStep {P : Type} (valid : String → P → Bool) (params : Option P) (a : List (ComputeObject P))
    (r : String × String) : Outcome (List (ComputeObject P)) := do
  let o ← construct valid r.2 params
  .ok (a ++ [o])

theorem buildNamed_eq {P : Type} (valid : String → P → Bool) (acc : List (ComputeObject P)) (x : String × Option P) :
    buildNamed valid acc x = (registry.filter fun r => r.1 = x.1).foldlM (buildStep valid x.2) acc := rfl

theorem construct_ok {P : Type} {valid : String → P → Bool} {cls : String} {params : Option P} {o : ComputeObject P}
    (h : construct valid cls params = .ok o) : o = ⟨cls, params⟩ := by
  cases params with
  | none =>
    rw [construct] at h
    split at h
    · cases h
    · cases h
      rfl
  | some p =>
    rw [construct] at h
    split at h
    · cases h
      rfl
    · cases h

theorem buildSteps_ok {P : Type} {valid : String → P → Bool} {params : Option P} (rs : List (String × String))
    (acc acc' : List (ComputeObject P)) (h : rs.foldlM (buildStep valid params) acc = .ok acc') :
    acc' = acc ++ rs.map fun r => ⟨r.2, params⟩ := by
  induction rs generalizing acc with
  | nil =>
    cases BC.ok_inj h
    simp
  | cons r rs ih =>
    obtain ⟨a, h1, h2⟩ := BC.foldlM_cons_ok.1 h
    rw [buildStep] at h1
    obtain ⟨o, h3, h4⟩ := Outcome.bind_eq_ok.1 h1
    cases h4
    rw [ih _ h2, construct_ok h3]
    simp

/-- The objects for one name. -/
def objectsFor {P : Type} (x : String × Option P) : List (ComputeObject P) :=
  (registry.filter fun r => r.1 = x.1).map fun r => ⟨r.2, x.2⟩

theorem build_ok {P : Type} {valid : String → P → Bool} (xs : List (String × Option P)) (acc acc' : List (ComputeObject P))
    (h : xs.foldlM (buildNamed valid) acc = .ok acc') : acc' = acc ++ xs.flatMap objectsFor := by
  induction xs generalizing acc with
  | nil =>
    cases BC.ok_inj h
    simp
  | cons x xs ih =>
    obtain ⟨a, h1, h2⟩ := BC.foldlM_cons_ok.1 h
    rw [buildNamed_eq] at h1
    rw [ih _ h2, buildSteps_ok _ _ _ h1]
    simp [objectsFor]

theorem mem_objectsFor {P : Type} (x : String × Option P) (o : ComputeObject P) :
    o ∈ objectsFor x ↔ (x.1, o.cls) ∈ registry ∧ o.params = x.2 := by
  simp only [objectsFor, List.mem_map, List.mem_filter, decide_eq_true_eq]
  constructor
  · rintro ⟨r, ⟨h1, h2⟩, rfl⟩
    rw [← h2]
    exact ⟨h1, rfl⟩
  · rintro ⟨h1, h2⟩
    refine ⟨(x.1, o.cls), ⟨h1, rfl⟩, ?_⟩
    cases o
    simp only at h2
    subst h2
    rfl

theorem computeManager_ok {P : Type} {valid : String → P → Bool} {entries : List (String × OutEntry)}
    {cps : List (ClassEntry P)} {objects : List (ComputeObject P)} (h : computeManager valid entries cps = .ok objects) :
    ∃ vars params, collectOutput entries = .ok vars ∧ classParameters cps = .ok params ∧
      objects = (toBuild vars params).flatMap objectsFor := by
  rw [computeManager] at h
  obtain ⟨vars, h1, h⟩ := Outcome.bind_eq_ok.1 h
  obtain ⟨params, h2, h⟩ := Outcome.bind_eq_ok.1 h
  refine ⟨vars, params, h1, h2, ?_⟩
  have := build_ok _ _ _ h
  simpa using this

/-! ### C155 -/

/-- C155: the objects that are built.  Without parameters there is an object of a class exactly if one of the output lists asks
for its name and no compute class parameters are given for that name; with parameters there is one exactly for the
parameters given for its name.  Nothing else is built. -/
theorem C155_objects {P : Type} (valid : String → P → Bool) (entries : List (String × OutEntry)) (cps : List (ClassEntry P))
    (objects : List (ComputeObject P)) (h : computeManager valid entries cps = .ok objects) (cls : String) :
    (⟨cls, none⟩ ∈ objects ↔ ∃ key, (key, cls) ∈ registry ∧ (∃ v, Requested entries v ∧ NameFor v key) ∧
      ¬ ∃ p, HasParams cps key p) ∧
    ∀ p, ⟨cls, some p⟩ ∈ objects ↔ ∃ key, (key, cls) ∈ registry ∧ HasParams cps key p := by
  obtain ⟨vars, params, h1, h2, rfl⟩ := computeManager_ok h
  rw [collectOutput_eq] at h1
  have hv : ∀ v, v ∈ vars ↔ Requested entries v := by
    intro v
    rw [collect_mem entries [] vars h1 v]
    simp
  have hp : ∀ key p, (key, p) ∈ params ↔ HasParams cps key p := by
    intro key p
    rw [params_eq cps [] params h2 key p]
    simp
  have hb : ∀ key q, (key, q) ∈ toBuild vars params ↔
      (q = none ∧ (∃ v, Requested entries v ∧ NameFor v key) ∧ ¬ ∃ p, HasParams cps key p) ∨
        ∃ p, q = some p ∧ HasParams cps key p := by
    intro key q
    simp only [toBuild, List.mem_append, List.mem_map, List.mem_filter, decide_eq_true_eq, Prod.mk.injEq]
    constructor
    · rintro (⟨n, ⟨⟨v, hv', rfl⟩, hn⟩, rfl, rfl⟩ | ⟨⟨k, p⟩, hx, rfl, rfl⟩)
      · refine .inl ⟨rfl, ⟨v, (hv v).1 hv', rfl⟩, ?_⟩
        rintro ⟨p, hp'⟩
        exact hn ⟨(_, p), (hp _ p).2 hp', rfl⟩
      · exact .inr ⟨p, rfl, (hp _ p).1 hx⟩
    · rintro (⟨rfl, ⟨v, hr, hk⟩, hno⟩ | ⟨p, rfl, hp'⟩)
      · refine .inl ⟨key, ⟨⟨v, (hv v).2 hr, hk⟩, ?_⟩, rfl, rfl⟩
        rintro ⟨⟨k, p⟩, hx, rfl⟩
        exact hno ⟨p, (hp _ p).1 hx⟩
      · exact .inr ⟨(key, p), (hp _ p).2 hp', rfl, rfl⟩
  constructor
  · rw [List.mem_flatMap]
    constructor
    · rintro ⟨⟨key, q⟩, hx, ho⟩
      rw [mem_objectsFor] at ho
      obtain ⟨ho1, ho2⟩ := ho
      simp only at ho1 ho2
      subst ho2
      rcases (hb key none).1 hx with ⟨_, a, b⟩ | ⟨p, a, _⟩
      · exact ⟨key, ho1, a, b⟩
      · cases a
    · rintro ⟨key, hr, a, b⟩
      exact ⟨(key, none), (hb key none).2 (.inl ⟨rfl, a, b⟩), (mem_objectsFor _ _).2 ⟨hr, rfl⟩⟩
  · intro p
    rw [List.mem_flatMap]
    constructor
    · rintro ⟨⟨key, q⟩, hx, ho⟩
      rw [mem_objectsFor] at ho
      obtain ⟨ho1, ho2⟩ := ho
      simp only at ho1 ho2
      subst ho2
      rcases (hb key (some p)).1 hx with ⟨a, _⟩ | ⟨p', a, b⟩
      · cases a
      · cases a
        exact ⟨key, ho1, b⟩
    · rintro ⟨key, hr, a⟩
      exact ⟨(key, some p), (hb key (some p)).2 (.inr ⟨p, rfl, a⟩), (mem_objectsFor _ _).2 ⟨hr, rfl⟩⟩

/-- C155: every entry of the input whose name contains "Output" has to be a list, and its "Output Variables" too. -/
theorem C155_refused {P : Type} (valid : String → P → Bool) (entries : List (String × OutEntry)) (cps : List (ClassEntry P))
    (name : String) (e : OutEntry) (hm : (name, e) ∈ entries) (ho : "Output".toList <:+: name.toList)
    (he : e = .value ∨ e = .variablesValue) (objects : List (ComputeObject P)) :
    computeManager valid entries cps ≠ .ok objects := by
  intro h
  obtain ⟨vars, params, h1, _, _⟩ := computeManager_ok h
  rw [collectOutput_eq] at h1
  obtain ⟨pre, post, rfl⟩ := List.append_of_mem hm
  obtain ⟨a, _, h2⟩ := BC.foldlM_append_ok.1 h1
  obtain ⟨b, h3, _⟩ := BC.foldlM_cons_ok.1 h2
  rw [collectStep, if_pos ((contains_iff _ _).2 ho)] at h3
  rcases he with rfl | rfl <;> cases h3

theorem buildNamed_unknown {P : Type} (valid : String → P → Bool) (acc : List (ComputeObject P)) (x : String × Option P)
    (hx : x.1 ∉ registry.map Prod.fst) : buildNamed valid acc x = .ok acc := by
  rw [buildNamed_eq]
  have : (registry.filter fun r => r.1 = x.1) = [] := by
    rw [List.filter_eq_nil_iff]
    intro r hr
    simp only [decide_eq_true_eq]
    intro he
    exact hx (List.mem_map.2 ⟨r, hr, he⟩)
  rw [this]
  rfl

theorem build_filter {P : Type} (valid : String → P → Bool) (xs : List (String × Option P)) (acc : List (ComputeObject P)) :
    xs.foldlM (buildNamed valid) acc =
      (xs.filter fun x => x.1 ∈ registry.map Prod.fst).foldlM (buildNamed valid) acc := by
  induction xs generalizing acc with
  | nil => rfl
  | cons x xs ih =>
    rw [List.filter_cons]
    split
    · next hx =>
      rw [List.foldlM_cons, List.foldlM_cons]
      congr 1
      funext a
      exact ih a
    · next hx =>
      rw [List.foldlM_cons, buildNamed_unknown valid acc x (by simpa using hx), Outcome.ok_bind]
      exact ih acc

theorem collect_filter (K : String → Bool) (pre post : List (String × OutEntry)) (name : String) (a b : List String)
    (v : String) (hK : K v = false) (acc : List String) :
    ∀ (r : Outcome (List String)), (pre ++ (name, .vars (a ++ v :: b)) :: post).foldlM collectStep acc = r →
      ∃ r', (pre ++ (name, .vars (a ++ b)) :: post).foldlM collectStep acc = r' ∧
        match r, r' with
        | .ok x, .ok y => x.filter K = y.filter K
        | .fail f, .fail g => f = g
        | .ub, .ub => True
        | _, _ => False := by
  have tail : ∀ (post : List (String × OutEntry)) (x y : List String), x.filter K = y.filter K →
      match post.foldlM collectStep x, post.foldlM collectStep y with
      | .ok x, .ok y => x.filter K = y.filter K
      | .fail f, .fail g => f = g
      | .ub, .ub => True
      | _, _ => False := by
    intro post
    induction post with
    | nil => exact fun x y h => h
    | cons e post ih =>
      intro x y h
      rw [List.foldlM_cons, List.foldlM_cons]
      obtain ⟨n, en⟩ := e
      by_cases hc : contains "Output" n = true
      · cases en with
        | value =>
          simp only [collectStep, hc, if_true]
          rfl
        | variablesValue =>
          simp only [collectStep, hc, if_true]
          rfl
        | noVariables =>
          simp only [collectStep, hc, if_true, Outcome.ok_bind]
          exact ih x y h
        | vars names =>
          simp only [collectStep, hc, if_true, Outcome.ok_bind]
          apply ih
          rw [addVariables_filter, addVariables_filter, h]
      · simp only [collectStep, if_neg hc, Outcome.ok_bind]
        exact ih x y h
  intro r hr
  refine ⟨_, rfl, ?_⟩
  subst hr
  induction pre generalizing acc with
  | nil =>
    rw [List.nil_append, List.nil_append, List.foldlM_cons, List.foldlM_cons]
    by_cases hc : contains "Output" name = true
    · simp only [collectStep, hc, if_true, Outcome.ok_bind]
      apply tail
      rw [addVariables_filter, addVariables_filter, List.filter_append, List.filter_append, List.filter_cons,
        if_neg (by simp [hK])]
    · simp only [collectStep, if_neg hc, Outcome.ok_bind]
      exact tail _ _ _ rfl
  | cons e pre ih =>
    rw [List.cons_append, List.cons_append, List.foldlM_cons, List.foldlM_cons]
    cases hs : collectStep acc e with
    | ok x => exact ih x
    | fail f => rfl
    | ub => trivial

/-- C155: a name that is not that of a compute class is passed over without a message (it may be that of another field). -/
theorem C155_unknown {P : Type} (valid : String → P → Bool) (pre post : List (String × OutEntry)) (name : String)
    (a b : List String) (v : String) (hv : ∀ cls, (underscored v, cls) ∉ registry) (cps : List (ClassEntry P)) :
    computeManager valid (pre ++ (name, .vars (a ++ v :: b)) :: post) cps =
      computeManager valid (pre ++ (name, .vars (a ++ b)) :: post) cps := by
  let K : String → Bool := fun n => decide (underscored n ∈ registry.map Prod.fst)
  have hK : K v = false := by
    simp only [K, decide_eq_false_iff_not]
    intro h
    obtain ⟨r, hr, he⟩ := List.mem_map.1 h
    exact hv r.2 (by rw [← he]; exact hr)
  obtain ⟨r', h1, h2⟩ := collect_filter K pre post name a b v hK [] _ rfl
  rw [computeManager, computeManager, collectOutput_eq, collectOutput_eq, h1]
  revert h2
  cases h0 : (pre ++ (name, OutEntry.vars (a ++ v :: b)) :: post).foldlM collectStep [] with
  | fail f =>
    cases r' with
    | ok y => exact fun h => h.elim
    | fail g =>
      intro h
      simp only at h
      rw [h]
    | ub => exact fun h => h.elim
  | ub =>
    cases r' with
    | ok y => exact fun h => h.elim
    | fail g => exact fun h => h.elim
    | ub => exact fun _ => rfl
  | ok x =>
    cases r' with
    | fail g => exact fun h => h.elim
    | ub => exact fun h => h.elim
    | ok y =>
      intro h
      simp only at h
      simp only [Outcome.ok_bind]
      congr 1
      funext params
      rw [build_filter valid (toBuild x params), build_filter valid (toBuild y params)]
      congr 1
      have key : ∀ z : List String, (toBuild z params).filter (fun x => x.1 ∈ registry.map Prod.fst) =
          (toBuild (z.filter K) params).filter (fun x => x.1 ∈ registry.map Prod.fst) := by
        intro z
        simp only [toBuild, List.filter_append]
        congr 1
        induction z with
        | nil => rfl
        | cons n z ih =>
          rw [List.filter_cons (p := K)]
          by_cases hn : K n = true
          · rw [if_pos hn, List.map_cons, List.map_cons, List.filter_cons, List.filter_cons]
            split
            · rw [List.map_cons, List.map_cons, List.filter_cons, List.filter_cons, ih]
            · exact ih
          · rw [if_neg hn, List.map_cons, List.filter_cons]
            split
            · rw [List.map_cons, List.filter_cons, if_neg, ih]
              simpa [K] using hn
            · exact ih
      rw [key x, key y, h]

/-- C155, partial: every requested quantity is computed by one object only, if the output lists do not spell one name in two
ways. -/
theorem C155_once_partial {P : Type} (valid : String → P → Bool) (entries : List (String × OutEntry))
    (hs : ∀ v w, Requested entries v → Requested entries w → underscored v = underscored w → v = w)
    (objects : List (ComputeObject P)) (h : computeManager valid entries [] = .ok objects) : objects.Nodup := by
  obtain ⟨vars, params, h1, h2, rfl⟩ := computeManager_ok h
  rw [collectOutput_eq] at h1
  cases BC.ok_inj h2
  have hv : ∀ v, v ∈ vars ↔ Requested entries v := by
    intro v
    rw [collect_mem entries [] vars h1 v]
    simp
  have hn := collect_nodup entries [] vars List.nodup_nil h1
  have e : toBuild vars ([] : List (String × P)) = vars.map fun v => (underscored v, none) := by
    simp [toBuild, Function.comp_def]
  rw [e]
  have hreg : registry.Nodup := by decide
  have hcls : (registry.map Prod.snd).Nodup := by decide
  rw [List.nodup_flatMap]
  constructor
  · intro x _
    rw [objectsFor]
    apply List.Nodup.map_on
    · intro r hr s hs' he
      simp only [ComputeObject.mk.injEq, and_true] at he
      exact List.inj_on_of_nodup_map hcls (List.mem_filter.1 hr).1 (List.mem_filter.1 hs').1 he
    · exact hreg.filter _
  · rw [List.pairwise_map]
    refine hn.imp_of_mem ?_
    intro v w hv' hw' hne
    rw [Function.onFun]
    intro o h3 h4
    rw [mem_objectsFor] at h3 h4
    have := List.inj_on_of_nodup_map hcls h3.1 h4.1 rfl
    exact hne (hs v w ((hv v).1 hv') ((hv w).1 hw') (Prod.mk.inj this).1)

theorem output_contains : contains "Output" "Output" = true := (contains_iff _ _).2 (List.infix_refl _)

/-- C155 is false of the code: a name spelled with a space and with an underscore gives two objects. -/
theorem C155_once_fails : ¬ OneEach := by
  intro h
  have := h (fun _ _ => true) [("Output", .vars ["Contact Force", "Contact_Force"])]
    [⟨"Compute_Contact_Force", none⟩, ⟨"Compute_Contact_Force", none⟩] (by
      have h1 : collectOutput [("Output", .vars ["Contact Force", "Contact_Force"])] =
          .ok ["Contact Force", "Contact_Force"] := by
        rw [collectOutput_eq, List.foldlM_cons, collectStep, if_pos output_contains, Outcome.ok_bind]
        rfl
      rw [computeManager, h1, Outcome.ok_bind]
      rfl)
  simp at this

/-- C155 is false of the code: "Block Data" in an output list without compute class parameters makes the constructor read from a
null pointer. -/
theorem C155_any_fails : ¬ AnyVariable := by
  intro h
  obtain ⟨objects, ho⟩ := h (fun _ _ => true) ["Block Data"]
  have h1 : collectOutput [("Output", .vars ["Block Data"])] = .ok ["Block Data"] := by
    rw [collectOutput_eq, List.foldlM_cons, collectStep, if_pos output_contains, Outcome.ok_bind]
    rfl
  rw [computeManager, h1, Outcome.ok_bind] at ho
  have h2 : ∀ x : Outcome (List (ComputeObject Unit)), x = .ub → x ≠ .ok objects := by
    rintro _ rfl h
    cases h
  exact h2 _ rfl ho

/-- C155, partial: any other names can be asked for, in any number of lists. -/
theorem C155_any_partial {P : Type} (valid : String → P → Bool) (outputs : List (String × List String))
    (hneed : ∀ n vs, (n, vs) ∈ outputs → ∀ v ∈ vs,
      underscored v ∉ ["Block_Data", "Node_Set_Data", "Nearest_Point_Data", "JIntegral"]) :
    ∃ objects, computeManager valid (outputs.map fun o => (o.1, .vars o.2)) [] = .ok objects := by
  have h1 : ∀ (outputs : List (String × List String)) (acc : List String),
      ∃ vars, (outputs.map fun o => ((o.1, OutEntry.vars o.2) : String × OutEntry)).foldlM collectStep acc = .ok vars := by
    intro outputs
    induction outputs with
    | nil => exact fun acc => ⟨acc, rfl⟩
    | cons o outputs ih =>
      intro acc
      rw [List.map_cons]
      by_cases hc : contains "Output" o.1 = true
      · obtain ⟨vars, hv⟩ := ih (addVariables acc o.2)
        exact ⟨vars, BC.foldlM_cons_ok.2 ⟨_, by rw [collectStep, if_pos hc], hv⟩⟩
      · obtain ⟨vars, hv⟩ := ih acc
        exact ⟨vars, BC.foldlM_cons_ok.2 ⟨_, by rw [collectStep, if_neg hc], hv⟩⟩
  obtain ⟨vars, hv⟩ := h1 outputs []
  have hnames : ∀ v ∈ vars, underscored v ∉ ["Block_Data", "Node_Set_Data", "Nearest_Point_Data", "JIntegral"] := by
    intro v hm
    rw [collect_mem _ [] vars hv v] at hm
    rcases hm with hm | ⟨n, names, hm, _, hvn⟩
    · simp at hm
    · obtain ⟨o, ho, he⟩ := List.mem_map.1 hm
      simp only [Prod.mk.injEq, OutEntry.vars.injEq] at he
      obtain ⟨rfl, rfl⟩ := he
      exact hneed o.1 o.2 ho v hvn
  have hreg : ∀ r ∈ registry, r.1 ∉ ["Block_Data", "Node_Set_Data", "Nearest_Point_Data", "JIntegral"] →
      needsParams r.2 = false := by decide
  have e : toBuild vars ([] : List (String × P)) = vars.map fun v => (underscored v, none) := by
    simp [toBuild, Function.comp_def]
  have hsteps : ∀ (rs : List (String × String)) (acc : List (ComputeObject P)), (∀ r ∈ rs, needsParams r.2 = false) →
      ∃ a, rs.foldlM (buildStep valid none) acc = .ok a := by
    intro rs
    induction rs with
    | nil => exact fun acc _ => ⟨acc, rfl⟩
    | cons r rs ih =>
      intro acc hr
      obtain ⟨a, ha⟩ := ih (acc ++ [⟨r.2, none⟩]) fun r' h' => hr r' (List.mem_cons_of_mem _ h')
      refine ⟨a, BC.foldlM_cons_ok.2 ⟨_, ?_, ha⟩⟩
      rw [buildStep, construct, if_neg (by rw [hr r (List.mem_cons_self ..)]; simp), Outcome.ok_bind]
  have hall : ∀ (vs : List String) (acc : List (ComputeObject P)),
      (∀ v ∈ vs, underscored v ∉ ["Block_Data", "Node_Set_Data", "Nearest_Point_Data", "JIntegral"]) →
      ∃ a, (vs.map fun v => ((underscored v, none) : String × Option P)).foldlM (buildNamed valid) acc = .ok a := by
    intro vs
    induction vs with
    | nil => exact fun acc _ => ⟨acc, rfl⟩
    | cons v vs ih =>
      intro acc hvs
      obtain ⟨a, ha⟩ := hsteps (registry.filter fun r => r.1 = underscored v) acc (by
        intro r hr
        obtain ⟨hr1, hr2⟩ := List.mem_filter.1 hr
        simp only [decide_eq_true_eq] at hr2
        exact hreg r hr1 (by rw [hr2]; exact hvs v (List.mem_cons_self ..)))
      obtain ⟨a', ha'⟩ := ih a fun w hw => hvs w (List.mem_cons_of_mem _ hw)
      exact ⟨a', BC.foldlM_cons_ok.2 ⟨a, by rw [buildNamed_eq]; exact ha, ha'⟩⟩
  obtain ⟨a, ha⟩ := hall vars [] hnames
  refine ⟨a, ?_⟩
  rw [computeManager, collectOutput_eq, hv, Outcome.ok_bind]
  have : classParameters ([] : List (ClassEntry P)) = .ok [] := rfl
  rw [this, Outcome.ok_bind, e]
  exact ha

/-- C155: the fields for which storage is asked are exactly those of the objects, each once and in increasing order. -/
theorem C155_fields {P : Type} (ids : ComputeObject P → List Nat) (objects : List (ComputeObject P)) :
    (∀ f, f ∈ computeFieldIds ids objects ↔ ∃ o ∈ objects, f ∈ ids o) ∧
      (computeFieldIds ids objects).Pairwise (· < ·) := by
  refine ⟨?_, sorted_sortUnique _⟩
  intro f
  rw [computeFieldIds, mem_sortUnique, List.mem_flatMap]

/-- A non-trivial case: two output lists, one variable in both, one unknown, and parameters for a class. -/
example : computeManager (P := Nat) (fun _ _ => true) [("Output1", .vars ["Force", "Volume"]), ("Blocks", .value),
      ("Output2", .vars ["Force", "Radius"])] [.params "Block Data" 7] =
    .ok [⟨"Compute_Force", none⟩, ⟨"Compute_Radius", none⟩, ⟨"Compute_Block_Data", some 7⟩] ∧
    (∀ cls, (underscored "Volume", cls) ∉ registry) := by
  have c1 : contains "Output" "Output1" = true := by rw [contains_iff]; decide
  have c2 : contains "Output" "Output2" = true := by rw [contains_iff]; decide
  have c3 : contains "Output" "Blocks" = false := by rw [← Bool.not_eq_true, contains_iff]; decide
  constructor
  · have h1 : collectOutput [("Output1", .vars ["Force", "Volume"]), ("Blocks", .value), ("Output2", .vars ["Force", "Radius"])]
        = .ok ["Force", "Volume", "Radius"] := by
      rw [collectOutput_eq, List.foldlM_cons, collectStep, if_pos c1, Outcome.ok_bind, List.foldlM_cons, collectStep,
        if_neg (by rw [c3]; simp), Outcome.ok_bind, List.foldlM_cons, collectStep, if_pos c2, Outcome.ok_bind]
      rfl
    rw [computeManager, h1, Outcome.ok_bind]
    rfl
  · intro cls h
    have h2 : underscored "Volume" ∉ registry.map Prod.fst := by decide
    exact h2 (List.mem_map.2 ⟨_, h, rfl⟩)

end Verif.Setup
