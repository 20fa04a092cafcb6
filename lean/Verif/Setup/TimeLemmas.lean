import Verif.Setup.Lemmas

/-! Helper lemmas for C152 and C153. -/

noncomputable section

namespace Verif.Setup

open Verif
open scoped Classical

theorem forBlocks_get {A B : Type} {f : A → Outcome B} {as : List A} {bs : List B} (h : forBlocks f as = .ok bs) :
    bs.length = as.length ∧ ∀ (k : Nat) (a : A), as[k]? = some a → ∃ b, bs[k]? = some b ∧ f a = .ok b := by
  induction as generalizing bs with
  | nil => cases h; simp
  | cons a as ih =>
    rw [forBlocks] at h
    obtain ⟨b, h1, h⟩ := Outcome.bind_eq_ok.1 h
    obtain ⟨bs', h2, h⟩ := Outcome.bind_eq_ok.1 h
    cases h
    obtain ⟨hl, hg⟩ := ih h2
    refine ⟨by simp [hl], ?_⟩
    intro k a' hk
    cases k with
    | zero =>
      cases hk
      exact ⟨b, rfl, h1⟩
    | succ k =>
      obtain ⟨b', hb⟩ := hg k a' (by simpa using hk)
      exact ⟨b', by simpa using hb⟩

theorem forBlocks_ok {A B : Type} {f : A → Outcome B} {as : List A} (h : ∀ a ∈ as, ∃ b, f a = .ok b) :
    ∃ bs, forBlocks f as = .ok bs := by
  induction as with
  | nil => exact ⟨[], rfl⟩
  | cons a as ih =>
    obtain ⟨b, hb⟩ := h a List.mem_cons_self
    obtain ⟨bs, hbs⟩ := ih fun a ha => h a (List.mem_cons_of_mem _ ha)
    exact ⟨b :: bs, by rw [forBlocks, hb, Outcome.ok_bind, hbs]; rfl⟩

theorem forBlocks_mem {A B : Type} {f : A → Outcome B} {as : List A} {bs : List B} (h : forBlocks f as = .ok bs) :
    ∀ b ∈ bs, ∃ a ∈ as, f a = .ok b := by
  induction as generalizing bs with
  | nil => cases h; simp
  | cons a as ih =>
    rw [forBlocks] at h
    obtain ⟨b, h1, h⟩ := Outcome.bind_eq_ok.1 h
    obtain ⟨bs', h2, h⟩ := Outcome.bind_eq_ok.1 h
    cases h
    intro b' hb'
    rcases List.mem_cons.1 hb' with rfl | hb'
    · exact ⟨a, List.mem_cons_self, h1⟩
    · obtain ⟨a', ha', hf⟩ := ih h2 b' hb'
      exact ⟨a', List.mem_cons_of_mem _ ha', hf⟩

theorem evaluateValue_follows {f : Formula} (hf : Assigns f) {tc tp v : ℝ} (h : evaluateValue f tc tp = .ok v) :
    valueAt f tc = some v := by
  rw [evaluateValue] at h
  split at h
  · cases h
  · next w _ =>
    split at h
    · cases h
    · next v' hv =>
      cases h
      rw [valueAt, hf tc 0 w, hv]

theorem evaluateValue_defined {f : Formula} (hf : ∀ t v, (f t v).isSome) (tc tp : ℝ) :
    ∃ v, evaluateValue f tc tp = .ok v := by
  rw [evaluateValue]
  obtain ⟨w, hw⟩ := Option.isSome_iff_exists.1 (hf tp 0)
  rw [hw]
  obtain ⟨v, hv⟩ := Option.isSome_iff_exists.1 (hf tc w)
  simp only [hv]
  exact ⟨v, rfl⟩

theorem kind_time {name : String} (h : name = "Time Dependent Critical Stretch") :
    damageKind name = .ok .timeDependent := by
  subst h
  simp [damageKind]

theorem kind_interface {name : String} (h : name = "Interface Aware") : damageKind name = .ok .interfaceAware := by
  subst h
  simp [damageKind]

/-- The models of an explicit step and of the set-up follow their functions. -/
theorem stepDamage_follows {ds : String → Option DamageList} {tc tp : ℝ} {name : String} {o : Option DamageModel}
    {p : DamageList} (h : stepDamage ds tc tp name = .ok o) (hn : name ≠ "None") (hp : ds name = some p)
    (hf : Assigns p.formula) (hk : p.model = "Time Dependent Critical Stretch") :
    ∃ m, o = some m ∧ m.kind = .timeDependent ∧ m.critical = valueAt p.formula tc := by
  rw [stepDamage, if_neg hn, hp] at h
  simp only at h
  obtain ⟨m, h1, h⟩ := Outcome.bind_eq_ok.1 h
  obtain ⟨m', h2, h⟩ := Outcome.bind_eq_ok.1 h
  cases h
  rw [createDamage, kind_time hk, Outcome.ok_bind] at h1
  cases h1
  rw [evaluateDamage, if_pos rfl] at h2
  obtain ⟨c, h3, h2⟩ := Outcome.bind_eq_ok.1 h2
  cases h2
  exact ⟨_, rfl, rfl, (evaluateValue_follows hf h3).symm⟩

theorem setupDamage_follows {ds : String → Option DamageList} {name : String} {o : Option DamageModel}
    {p : DamageList} (h : setupDamage ds name = .ok o) (hn : name ≠ "None") (hp : ds name = some p)
    (hf : Assigns p.formula) (hk : p.model = "Time Dependent Critical Stretch") :
    ∃ m, o = some m ∧ m.kind = .timeDependent ∧ m.critical = valueAt p.formula 0 := by
  rw [setupDamage, if_neg hn, hp] at h
  simp only at h
  obtain ⟨m, h1, h⟩ := Outcome.bind_eq_ok.1 h
  obtain ⟨m', h2, h⟩ := Outcome.bind_eq_ok.1 h
  cases h
  rw [createDamage, kind_time hk, Outcome.ok_bind] at h1
  cases h1
  rw [evaluateDamage, if_pos rfl] at h2
  obtain ⟨c, h3, h2⟩ := Outcome.bind_eq_ok.1 h2
  cases h2
  exact ⟨_, rfl, rfl, (evaluateValue_follows hf h3).symm⟩

theorem frictionAt_follows {I : Input} {tc tp : ℝ} {o : Option ℝ} (h : frictionAt I tc tp = .ok o) {f : Formula}
    (hf : I.friction = some f) (ha : Assigns f) : o = valueAt f tc := by
  rw [frictionAt, hf] at h
  simp only at h
  obtain ⟨v, h1, h⟩ := Outcome.bind_eq_ok.1 h
  cases h
  exact (evaluateValue_follows ha h1).symm

theorem evaluate_ok {s s' : Session} {t : ℝ} (h : evaluate s t = .ok s') :
    s' = { s with log := s.log ++ [⟨t, s.damage, s.friction⟩] } := by
  rw [evaluate] at h
  obtain ⟨⟨⟩, _, h⟩ := Outcome.bind_eq_ok.1 h
  exact (BC.ok_inj h).symm

/-- The evaluation of an explicit step. -/
theorem explicitStep_ok {I : Input} (ha : AllAssign I) {s s' : Session} {tc tp : ℝ}
    (h : explicitStep I s tc tp = .ok s') :
    ∃ e, s'.log = s.log ++ [e] ∧ e.time = tc ∧ CriticalFollows I e ∧ FrictionFollows I e := by
  rw [explicitStep] at h
  obtain ⟨dm, h1, h⟩ := Outcome.bind_eq_ok.1 h
  obtain ⟨fr, h2, h⟩ := Outcome.bind_eq_ok.1 h
  rw [evaluate_ok h]
  refine ⟨⟨tc, dm, fr⟩, rfl, rfl, ?_, ?_⟩
  · intro k name p hk hn hp hmod
    obtain ⟨o, ho, hs⟩ := (forBlocks_get h1).2 k name hk
    obtain ⟨m, rfl, hm⟩ := stepDamage_follows hs hn hp (ha.1 name p hp) hmod
    exact ⟨m, ho, hm⟩
  · intro f hf
    exact frictionAt_follows h2 hf (ha.2 f hf)

theorem explicitSteps_log {I : Input} (ha : AllAssign I) {t0 dt : ℝ} (k step : Nat) {tp : ℝ} {s s' : Session}
    (h : explicitSteps I t0 dt k step tp s = .ok s') :
    ∃ es : List Evaluation, s'.log = s.log ++ es ∧ es.length = k ∧ ∀ (i : Nat) (e : Evaluation), es[i]? = some e →
      e.time = t0 + ((step + i : Nat) : ℝ) * dt ∧ CriticalFollows I e ∧ FrictionFollows I e := by
  induction k generalizing step tp s with
  | zero => cases h; exact ⟨[], by simp, rfl, by simp⟩
  | succ k ih =>
    rw [explicitSteps] at h
    obtain ⟨s1, h1, h2⟩ := Outcome.bind_eq_ok.1 h
    obtain ⟨e, he, ht, hc, hf⟩ := explicitStep_ok ha h1
    obtain ⟨es, h3, h4, h5⟩ := ih (step + 1) h2
    refine ⟨e :: es, by rw [h3, he]; simp, by simp [h4], ?_⟩
    intro i e' hi
    cases i with
    | zero =>
      cases hi
      exact ⟨by simpa using ht, hc, hf⟩
    | succ i =>
      obtain ⟨a, b, c⟩ := h5 i e' (by simpa using hi)
      refine ⟨?_, b, c⟩
      rw [a]
      congr 3
      omega

/-- Evaluations of the other solvers. -/
theorem runImplicit_log {ts : List ℝ} {s s' : Session} (h : runImplicit ts s = .ok s') :
    s'.damage = s.damage ∧ s'.friction = s.friction ∧
      s'.log = s.log ++ ts.map fun t => ⟨t, s.damage, s.friction⟩ := by
  induction ts generalizing s with
  | nil => cases BC.ok_inj h; simp
  | cons t ts ih =>
    obtain ⟨s1, h1, h2⟩ := BC.foldlM_cons_ok.1 h
    have e := evaluate_ok h1
    obtain ⟨a, b, c⟩ := ih h2
    subst e
    exact ⟨a, b, by rw [c]; simp⟩

theorem start_ok {I : Input} {s : Session} (h : start I = .ok s) :
    forBlocks (setupDamage I.models) I.names = .ok s.damage ∧ frictionAt I 0 0 = .ok s.friction ∧ s.log = [] := by
  rw [start] at h
  obtain ⟨fr, h1, h⟩ := Outcome.bind_eq_ok.1 h
  obtain ⟨dm, h2, h⟩ := Outcome.bind_eq_ok.1 h
  cases h
  exact ⟨h2, h1, rfl⟩

/-- The models of the set-up hold the values of time zero. -/
theorem start_follows {I : Input} (ha : AllAssign I) {s : Session} (h : start I = .ok s) (e : Evaluation)
    (hd : e.damage = s.damage) (hf : e.friction = s.friction) (ht : e.time = 0) :
    CriticalFollows I e ∧ FrictionFollows I e := by
  obtain ⟨h1, h2, _⟩ := start_ok h
  constructor
  · intro k name p hk hn hp hmod
    obtain ⟨o, ho, hs⟩ := (forBlocks_get h1).2 k name hk
    obtain ⟨m, rfl, hm⟩ := setupDamage_follows hs hn hp (ha.1 name p hp) hmod
    rw [hd, ht]
    exact ⟨m, ho, hm⟩
  · intro f hff
    rw [hf, ht]
    exact frictionAt_follows h2 hff (ha.2 f hff)

/-! ### Definedness -/

theorem evaluateDamage_defined {p : DamageList} (hf : ∀ t v, (p.formula t v).isSome) (tc tp : ℝ) (m : DamageModel) :
    ∃ m', evaluateDamage p tc tp m = .ok m' ∧ m'.kind = m.kind ∧ m'.manager = m.manager ∧
      (m.kind = .timeDependent → m'.critical ≠ none) ∧ (m.kind ≠ .timeDependent → m' = m) := by
  rw [evaluateDamage]
  split
  · next hk =>
    obtain ⟨v, hv⟩ := evaluateValue_defined hf tc tp
    rw [hv]
    exact ⟨_, rfl, rfl, rfl, by simp, fun hne => absurd hk hne⟩
  · next hk => exact ⟨m, rfl, rfl, rfl, fun h => absurd h hk, fun _ => rfl⟩

/-- A model made by the set-up or, if it is not the interface-aware one, by a step can be used. -/
def Good (o : Option DamageModel) : Prop :=
  ∀ m, o = some m → m.critical ≠ none ∧ (m.kind = .interfaceAware → m.manager = true)

theorem usable_good {o : Option DamageModel} (h : Good o) : usable o = .ok () := by
  cases o with
  | none => rfl
  | some m =>
    obtain ⟨h1, h2⟩ := h m rfl
    rw [usable, if_neg, if_neg h1]
    rintro ⟨hk, hm⟩
    rw [h2 hk] at hm
    cases hm

theorem evaluate_good {s : Session} (h : ∀ o ∈ s.damage, Good o) (t : ℝ) :
    evaluate s t = .ok { s with log := s.log ++ [⟨t, s.damage, s.friction⟩] } := by
  rw [evaluate, evaluateModels]
  obtain ⟨us, hu⟩ := forBlocks_ok (f := usable) (as := s.damage) fun o ho => ⟨(), usable_good (h o ho)⟩
  simp only [hu, Outcome.ok_bind]

theorem setupDamage_defined {I : Input} (hc : Complete I) (name : String) (hn : name ∈ I.names) :
    ∃ o, setupDamage I.models name = .ok o ∧ Good o := by
  rw [setupDamage]
  split
  · exact ⟨none, rfl, fun m hm => by cases hm⟩
  · next hne =>
    obtain ⟨p, k, hp, hk, hf⟩ := hc.1 name hn hne
    rw [hp]
    simp only
    rw [createDamage, hk]
    simp only [Outcome.ok_bind]
    obtain ⟨m', h1, h2, h3, h4, h5⟩ := evaluateDamage_defined hf 0 0
      ⟨k, decide (k = .interfaceAware), if k = .timeDependent then none else some p.critical⟩
    rw [h1]
    refine ⟨_, rfl, ?_⟩
    intro m hm
    cases hm
    constructor
    · by_cases hkt : k = .timeDependent
      · exact h4 hkt
      · rw [h5 hkt]
        simp [hkt]
    · intro hi
      rw [h3]
      rw [h2] at hi
      simpa using hi

theorem stepDamage_defined {I : Input} (hc : Complete I) (hni : ¬ UsesInterfaceAware I) (tc tp : ℝ) (name : String)
    (hn : name ∈ I.names) : ∃ o, stepDamage I.models tc tp name = .ok o ∧ Good o := by
  rw [stepDamage]
  split
  · exact ⟨none, rfl, fun m hm => by cases hm⟩
  · next hne =>
    obtain ⟨p, k, hp, hk, hf⟩ := hc.1 name hn hne
    rw [hp]
    simp only
    rw [createDamage, hk]
    simp only [Outcome.ok_bind]
    obtain ⟨m', h1, h2, h3, h4, h5⟩ := evaluateDamage_defined hf tc tp
      ⟨k, false, if k = .timeDependent then none else some p.critical⟩
    rw [h1]
    refine ⟨_, rfl, ?_⟩
    intro m hm
    cases hm
    constructor
    · by_cases hkt : k = .timeDependent
      · exact h4 hkt
      · rw [h5 hkt]
        simp [hkt]
    · intro hi
      rw [h2] at hi
      have hi' : k = .interfaceAware := hi
      subst hi'
      exfalso
      refine hni ⟨name, hn, hne, p, hp, ?_⟩
      rw [damageKind] at hk
      split at hk
      · cases hk
      split at hk
      · assumption
      split at hk
      · cases hk
      split at hk
      · cases hk
      split at hk
      · cases hk
      split at hk
      · cases hk
      · cases hk

theorem frictionAt_defined {I : Input} (hc : Complete I) (tc tp : ℝ) : ∃ o, frictionAt I tc tp = .ok o := by
  rw [frictionAt]
  cases hf : I.friction with
  | none => exact ⟨none, rfl⟩
  | some f =>
    obtain ⟨v, hv⟩ := evaluateValue_defined (hc.2 f hf) tc tp
    simp only [hv]
    exact ⟨some v, rfl⟩

theorem forBlocks_good {A : Type} {f : A → Outcome (Option DamageModel)} {as : List A}
    (h : ∀ a ∈ as, ∃ o, f a = .ok o ∧ Good o) : ∃ os, forBlocks f as = .ok os ∧ ∀ o ∈ os, Good o := by
  obtain ⟨os, hos⟩ := forBlocks_ok fun a ha => (h a ha).imp fun _ h => h.1
  refine ⟨os, hos, ?_⟩
  intro o ho
  obtain ⟨a, ha, hfa⟩ := forBlocks_mem hos o ho
  obtain ⟨o', h1, h2⟩ := h a ha
  rw [h1] at hfa
  cases hfa
  exact h2

theorem start_defined {I : Input} (hc : Complete I) : ∃ s, start I = .ok s ∧ ∀ o ∈ s.damage, Good o := by
  obtain ⟨fr, hfr⟩ := frictionAt_defined hc 0 0
  obtain ⟨dm, hdm, hg⟩ := forBlocks_good fun a ha => setupDamage_defined hc a ha
  exact ⟨⟨dm, fr, []⟩, by rw [start, hfr, Outcome.ok_bind, hdm]; rfl, hg⟩

theorem explicitSteps_defined {I : Input} (hc : Complete I) (hni : ¬ UsesInterfaceAware I) (t0 dt : ℝ) (k step : Nat)
    (tp : ℝ) (s : Session) (hs : ∀ o ∈ s.damage, Good o) :
    ∃ s', explicitSteps I t0 dt k step tp s = .ok s' ∧ ∀ o ∈ s'.damage, Good o := by
  induction k generalizing step tp s with
  | zero => exact ⟨s, rfl, hs⟩
  | succ k ih =>
    obtain ⟨fr, hfr⟩ := frictionAt_defined hc (t0 + step * dt) tp
    obtain ⟨dm, hdm, hg⟩ := forBlocks_good fun a ha => stepDamage_defined hc hni (t0 + step * dt) tp a ha
    obtain ⟨s', h1, h2⟩ := ih (step + 1) (t0 + step * dt)
      { s with damage := dm, friction := fr, log := s.log ++ [⟨t0 + step * dt, dm, fr⟩] } hg
    refine ⟨s', ?_, h2⟩
    rw [explicitSteps, explicitStep, hdm]
    simp only [Outcome.ok_bind]
    rw [hfr]
    simp only [Outcome.ok_bind]
    rw [evaluate_good (by exact hg)]
    simp only [Outcome.ok_bind]
    exact h1

theorem runImplicit_defined (ts : List ℝ) (s : Session) (hs : ∀ o ∈ s.damage, Good o) :
    ∃ s', runImplicit ts s = .ok s' ∧ ∀ o ∈ s'.damage, Good o := by
  induction ts generalizing s with
  | nil => exact ⟨s, rfl, hs⟩
  | cons t ts ih =>
    obtain ⟨s', h1, h2⟩ := ih { s with log := s.log ++ [⟨t, s.damage, s.friction⟩] } hs
    exact ⟨s', BC.foldlM_cons_ok.2 ⟨_, evaluate_good hs t, h1⟩, h2⟩

end Verif.Setup
