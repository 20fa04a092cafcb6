import Verif.Exodus.ElemLemmas

/-! # Steps and sessions -/

namespace Verif.Exodus

open Verif Verif.Field Verif.Mech

/-! ## Global variables -/

theorem putGlobal_ok {w w' : Work} {x : ℝ} (h : w.putGlobal x = .ok w') :
    w.index < w.globals.length ∧ w'.index = w.index + 1 ∧ w'.globals = w.globals.set w.index x ∧
      w'.file = w.file := by
  unfold Work.putGlobal at h
  split at h
  · cases h
    exact ⟨by assumption, rfl, rfl, rfl⟩
  · cases h

theorem firstData_ok {blocks : List Blk} {v : Var} {d : Nat → ℝ} (h : firstData blocks v = .ok d)
    (ht : v.spec.temporal ≠ .undefined) :
    ∃ b bs, blocks = b :: bs ∧ b.data v.spec.id (stepOf v.spec.temporal) = some d := by
  unfold firstData at h
  split at h
  · cases h
  · next b bs =>
    refine ⟨b, bs, rfl, ?_⟩
    split at h
    · cases h
    · next d' hd =>
      cases h
      rw [← hd]
      congr 1
      unfold stepOf
      cases hv : v.spec.temporal
      · exact absurd hv ht
      · simp
      · simp

/-- What a global variable does to the array of global values. -/
theorem writeGlobal_ok {h : Header} {s : Nat} {blocks : List Blk} {v : Var} {w w' : Work}
    (e : writeGlobal h s blocks v w = .ok w') :
    (w'.file.time = w.file.time ∧ w'.file.nodal = w.file.nodal ∧ w'.file.elem = w.file.elem ∧
      ∀ s', s' ≠ s → w'.file.globals s' = w.file.globals s') ∧
    w'.file.globals s = some w'.globals ∧ h.globalNames.length = w'.globals.length ∧
    w'.globals.length = w.globals.length ∧ w'.index = w.index + (endings v.spec.length).length ∧
    (∀ k, k < w.index → w'.globals[k]? = w.globals[k]?) ∧
    ∃ d, firstData blocks v = .ok d ∧
      ∀ c, c < (endings v.spec.length).length → w'.globals[w.index + c]? = some (d c) := by
  unfold writeGlobal at e
  rw [Outcome.bind_eq_ok] at e
  obtain ⟨w1, h1, e⟩ := e
  rw [Outcome.bind_eq_ok] at e
  obtain ⟨f, hf, e⟩ := e
  cases e
  obtain ⟨p0, p1, p2, p3, p4, p5⟩ := putGlobals_ok hf
  have key : w1.file = w.file ∧ w1.globals.length = w.globals.length ∧
      w1.index = w.index + (endings v.spec.length).length ∧
      (∀ k, k < w.index → w1.globals[k]? = w.globals[k]?) ∧
      ∃ d, firstData blocks v = .ok d ∧
        ∀ c, c < (endings v.spec.length).length → w1.globals[w.index + c]? = some (d c) := by
    split at h1
    · next hl =>
      split at h1
      · rw [Outcome.bind_eq_ok] at h1
        obtain ⟨d, hd, h1⟩ := h1
        obtain ⟨a1, a2, a3, a4⟩ := putGlobal_ok h1
        refine ⟨a4, by rw [a3]; simp, by rw [a2, hl]; rfl, ?_, d, hd, ?_⟩
        · intro k hk
          rw [a3, List.getElem?_set_ne (by omega)]
        · intro c hc
          have : c = 0 := by
            have : c < 1 := by simpa [hl, endings] using hc
            omega
          subst this
          rw [a3, Nat.add_zero, List.getElem?_set_self a1]
      · cases h1
    · next hl =>
      split at h1
      · simp only [Outcome.bind_eq_ok] at h1
        obtain ⟨d, hd, w2, h2, w3, h3, h4⟩ := h1
        obtain ⟨a1, a2, a3, a4⟩ := putGlobal_ok h2
        obtain ⟨b1, b2, b3, b4⟩ := putGlobal_ok h3
        obtain ⟨c1, c2, c3, c4⟩ := putGlobal_ok h4
        rw [a2] at b1 b2 b3
        rw [b2] at c1 c2 c3
        rw [a3] at b1 b3
        rw [b3] at c1 c3
        simp only [List.length_set] at b1 c1
        refine ⟨by rw [c4, b4, a4], by rw [c3]; simp, by rw [c2, hl]; rfl, ?_, d, hd, ?_⟩
        · intro k hk
          rw [c3, List.getElem?_set_ne (by omega), List.getElem?_set_ne (by omega),
            List.getElem?_set_ne (by omega)]
        · intro c hc
          have hc3 : c = 0 ∨ c = 1 ∨ c = 2 := by
            have : c < 3 := by simpa [hl, endings] using hc
            omega
          rw [c3]
          rcases hc3 with rfl | rfl | rfl
          · rw [List.getElem?_set_ne (by omega), List.getElem?_set_ne (by omega), Nat.add_zero,
              List.getElem?_set_self a1]
          · rw [List.getElem?_set_ne (by omega), List.getElem?_set_self (by simpa using b1)]
          · rw [show w.index + 2 = w.index + 1 + 1 by omega,
              List.getElem?_set_self (by simpa using c1)]
      · cases h1
    · cases h1
  obtain ⟨k1, k2, k3, k4, k5⟩ := key
  refine ⟨⟨by rw [p3, k1], by rw [p4, k1], by rw [p5, k1], fun s' hs => by rw [p2 s' hs, k1]⟩, p1,
    p0.symm, k2, k3, k4, k5⟩

/-! ## All variables -/

theorem elem_not_mem {N : Names} {v : Var} {k : Nat} (h : ∀ a ∈ v.components, k ≠ N.elem.get a) :
    k ∉ elemNumbers N v := by
  unfold elemNumbers
  rw [List.mem_map]
  rintro ⟨a, ha, e⟩
  exact h a ha e.symm

theorem writeVar_frame {S : Site} {N : Names} {h : Header} {n s : Nat} {blocks : List Blk} {v : Var}
    {w w' : Work} (hsp : v.spec.id = S.idField ∨ v.spec.id = S.procField → v.spec.length = .scalar)
    (e : writeVar S N h n s blocks v w = .ok w') : Frame N s v w.file w'.file := by
  unfold writeVar at e
  split at e
  · next hr =>
    obtain ⟨⟨a, b, c, d⟩, _⟩ := writeGlobal_ok e
    refine ⟨a, fun _ _ _ => by rw [b], fun _ _ _ _ => by rw [c], ?_⟩
    intro s' hs
    rcases hs with hs | hs
    · exact d s' hs
    · exact absurd hr hs
  · next hr => exact (writeNode_ok hr e).1
  · next hr =>
    obtain ⟨⟨f1, f2, f3, f4, f5, f6⟩, _⟩ := writeElement_ok hsp e
    refine ⟨f1, fun _ _ _ => by rw [f2], ?_, fun _ _ => by rw [f3]⟩
    intro s' k b hk
    apply f6
    rcases hk with hk | hk | hk
    · exact Or.inl hk
    · exact absurd hr hk
    · exact Or.inr (Or.inl (elem_not_mem hk))
  · cases e
    exact ⟨rfl, fun _ _ _ => rfl, fun _ _ _ _ => rfl, fun _ _ => rfl⟩

theorem writeVars_frame {S : Site} {N : Names} {h : Header} {n s : Nat} {blocks : List Blk}
    {vars : List Var} {w w' : Work} (hsp : SpecialScalars S vars)
    (e : writeVars S N h n s blocks vars w = .ok w') :
    w'.file.time = w.file.time ∧
    (∀ s' k, (s' ≠ s ∨ ∀ a ∈ kindNames .node vars, k ≠ N.node.get a) →
      w'.file.nodal s' k = w.file.nodal s' k) ∧
    (∀ s' k b, (s' ≠ s ∨ ∀ a ∈ kindNames .element vars, k ≠ N.elem.get a) →
      w'.file.elem s' k b = w.file.elem s' k b) ∧
    (∀ s', s' ≠ s → w'.file.globals s' = w.file.globals s') := by
  induction vars generalizing w with
  | nil =>
    rw [writeVars] at e
    cases e
    exact ⟨rfl, fun _ _ _ => rfl, fun _ _ _ _ => rfl, fun _ _ => rfl⟩
  | cons v vs ih =>
    rw [writeVars, Outcome.bind_eq_ok] at e
    obtain ⟨w1, h1, e⟩ := e
    obtain ⟨f1, f2, f3, f4⟩ := ih (fun u hu => hsp u (List.mem_cons_of_mem _ hu)) e
    obtain ⟨p1, p2, p3, p4⟩ := writeVar_frame (hsp v List.mem_cons_self) h1
    refine ⟨by rw [f1, p1], ?_, ?_, ?_⟩
    · intro s' k hk
      rw [f2, p2]
      · by_cases hr : v.spec.relation = .node
        · rcases hk with hk | hk
          · exact Or.inl hk
          · right; right
            intro a ha
            exact hk a (by rw [kindNames_cons, if_pos hr]; exact List.mem_append_left _ ha)
        · exact Or.inr (Or.inl hr)
      · rcases hk with hk | hk
        · exact Or.inl hk
        · right
          intro a ha
          exact hk a (by rw [kindNames_cons]; exact List.mem_append_right _ ha)
    · intro s' k b hk
      rw [f3, p3]
      · by_cases hr : v.spec.relation = .element
        · rcases hk with hk | hk
          · exact Or.inl hk
          · right; right
            intro a ha
            exact hk a (by rw [kindNames_cons, if_pos hr]; exact List.mem_append_left _ ha)
        · exact Or.inr (Or.inl hr)
      · rcases hk with hk | hk
        · exact Or.inl hk
        · right
          intro a ha
          exact hk a (by rw [kindNames_cons]; exact List.mem_append_right _ ha)
    · intro s' hs
      rw [f4 s' hs, p4 s' (Or.inl hs)]

theorem writeVars_append {S : Site} {N : Names} {h : Header} {n s : Nat} {blocks : List Blk}
    {a b : List Var} {w w' : Work} (e : writeVars S N h n s blocks (a ++ b) w = .ok w') :
    ∃ w1, writeVars S N h n s blocks a w = .ok w1 ∧ writeVars S N h n s blocks b w1 = .ok w' := by
  induction a generalizing w with
  | nil => exact ⟨w, rfl, e⟩
  | cons v a ih =>
    rw [List.cons_append, writeVars, Outcome.bind_eq_ok] at e
    obtain ⟨w1, h1, e⟩ := e
    obtain ⟨w2, h2, h3⟩ := ih e
    refine ⟨w2, ?_, h3⟩
    rw [writeVars, h1]
    simp only [Outcome.ok_bind]
    exact h2

theorem kindNames_append (r : Relation) (a b : List Var) :
    kindNames r (a ++ b) = kindNames r a ++ kindNames r b := by
  simp [kindNames]

theorem SpecialScalars.sub {S : Site} {a b : List Var} (h : SpecialScalars S b)
    (hs : ∀ v ∈ a, v ∈ b) : SpecialScalars S a := fun v hv => h v (hs v hv)

/-- The numbers of the components of one variable are different. -/
theorem numbers_nodup {l : List String} (hl : l.Nodup) {m : List String} (hm : m.Nodup)
    (hs : ∀ a ∈ m, a ∈ l) : (m.map (numbered l).get).Nodup := by
  apply List.Nodup.map_on _ hm
  intro a ha b hb e
  exact get_injective hl (hs a ha) (hs b hb) e

theorem writeVars_node {S : Site} {N : Names} {h : Header} {n s : Nat} {blocks : List Blk}
    {pre post : List Var} {v : Var} {w w' : Work} (hsp : SpecialScalars S (pre ++ v :: post))
    (e : writeVars S N h n s blocks (pre ++ v :: post) w = .ok w')
    (hn : (kindNames .node (pre ++ v :: post)).Nodup)
    (hN : N.node = numbered (kindNames .node (pre ++ v :: post)))
    (hr : v.spec.relation = .node) (ha : Allowed v) (hb : (allIds blocks).Nodup)
    (c : Nat) (hc : c < (endings v.spec.length).length) :
    N.node.get (v.name ++ (endings v.spec.length)[c]) ≤ h.nodeNames.length ∧
    ∃ vals, w'.file.nodal s (N.node.get (v.name ++ (endings v.spec.length)[c])) = some vals ∧
      HoldsNode S v blocks c vals := by
  obtain ⟨w1, h1, e⟩ := writeVars_append e
  rw [writeVars, Outcome.bind_eq_ok] at e
  obtain ⟨w2, h2, h3⟩ := e
  have hsplit : kindNames .node (pre ++ v :: post) =
      kindNames .node pre ++ (v.components ++ kindNames .node post) := by
    rw [kindNames_append, kindNames_cons, if_pos hr]
  have hv : writeNode S N h n s blocks v w1 = .ok w2 := by
    unfold writeVar at h2
    rw [hr] at h2
    exact h2
  have hn' := hn
  rw [hsplit, List.nodup_append] at hn'
  have hcn := (List.nodup_append.mp hn'.2.1)
  have hsub : ∀ a ∈ v.components, a ∈ kindNames .node (pre ++ v :: post) := by
    intro a ha
    rw [hsplit]
    exact List.mem_append_right _ (List.mem_append_left _ ha)
  obtain ⟨_, _, _, hk⟩ := writeNode_ok hr hv
  obtain ⟨k1, vals, k2, k3⟩ := hk hb (by rw [hN]; exact numbers_nodup hn hcn.1 hsub) ha c hc
  refine ⟨k1, vals, ?_, k3⟩
  obtain ⟨_, f2, _, _⟩ := writeVars_frame (hsp.sub fun u hu => by simp [hu]) h3
  rw [f2, k2]
  right
  intro a hap hget
  have hmem : v.name ++ (endings v.spec.length)[c] ∈ v.components :=
    List.mem_map_of_mem (List.getElem_mem hc)
  rw [hN] at hget
  have := get_injective hn (hsub _ hmem)
    (by rw [hsplit]; exact List.mem_append_right _ (List.mem_append_right _ hap)) hget
  exact hcn.2.2 _ hmem a hap this

theorem writeVars_elem {S : Site} {N : Names} {h : Header} {n s : Nat} {blocks : List Blk}
    {pre post : List Var} {v : Var} {w w' : Work} (hsp : SpecialScalars S (pre ++ v :: post))
    (e : writeVars S N h n s blocks (pre ++ v :: post) w = .ok w')
    (hn : (kindNames .element (pre ++ v :: post)).Nodup)
    (hN : N.elem = numbered (kindNames .element (pre ++ v :: post)))
    (hr : v.spec.relation = .element) (hb : (blocks.map Blk.id).Nodup)
    (hw : ∀ k b, w.file.elem s k b = none)
    (b : Blk) (hbb : b ∈ blocks) (c : Nat) (hc : c < (endings v.spec.length).length) :
    (elemVals S b v c ≠ none →
      N.elem.get (v.name ++ (endings v.spec.length)[c]) ≤ h.elemNames.length) ∧
    w'.file.elem s (N.elem.get (v.name ++ (endings v.spec.length)[c])) b.id = elemVals S b v c := by
  obtain ⟨w1, h1, e⟩ := writeVars_append e
  rw [writeVars, Outcome.bind_eq_ok] at e
  obtain ⟨w2, h2, h3⟩ := e
  have hsplit : kindNames .element (pre ++ v :: post) =
      kindNames .element pre ++ (v.components ++ kindNames .element post) := by
    rw [kindNames_append, kindNames_cons, if_pos hr]
  have hv : writeElement S N h n s v blocks w1 = .ok w2 := by
    unfold writeVar at h2
    rw [hr] at h2
    exact h2
  have hn' := hn
  rw [hsplit, List.nodup_append] at hn'
  have hcn := (List.nodup_append.mp hn'.2.1)
  have hsub : ∀ a ∈ v.components, a ∈ kindNames .element (pre ++ v :: post) := by
    intro a ha
    rw [hsplit]
    exact List.mem_append_right _ (List.mem_append_left _ ha)
  have hmem : v.name ++ (endings v.spec.length)[c] ∈ v.components :=
    List.mem_map_of_mem (List.getElem_mem hc)
  obtain ⟨_, hk⟩ := writeElement_ok (hsp v (by simp)) hv
  obtain ⟨k1, k2⟩ := hk (by unfold elemNumbers; rw [hN]; exact numbers_nodup hn hcn.1 hsub) hb b hbb c hc
  refine ⟨k1, ?_⟩
  obtain ⟨_, _, f3, _⟩ := writeVars_frame (hsp.sub fun u hu => by simp [hu]) h3
  obtain ⟨_, _, g3, _⟩ := writeVars_frame (hsp.sub fun u hu => by simp [hu]) h1
  have hdis : ∀ a, a ∈ kindNames .element pre ∨ a ∈ kindNames .element post →
      N.elem.get (v.name ++ (endings v.spec.length)[c]) ≠ N.elem.get a := by
    intro a hap hget
    rw [hN] at hget
    have := get_injective hn (hsub _ hmem)
      (by
        rw [hsplit]
        rcases hap with hap | hap
        · exact List.mem_append_left _ hap
        · exact List.mem_append_right _ (List.mem_append_right _ hap)) hget
    rcases hap with hap | hap
    · exact hn'.2.2 a hap _ (List.mem_append_left _ hmem) this.symm
    · exact hcn.2.2 _ hmem a hap this
  rw [f3 _ _ _ (Or.inr fun a ha => hdis a (Or.inr ha)), k2,
    g3 _ _ _ (Or.inr fun a ha => hdis a (Or.inl ha)), hw]
  simp

theorem writeVars_index {S : Site} {N : Names} {h : Header} {n s : Nat} {blocks : List Blk}
    {vars : List Var} {w w' : Work} (hsp : SpecialScalars S vars)
    (e : writeVars S N h n s blocks vars w = .ok w') :
    w'.index = w.index + (kindNames .global vars).length ∧
    w'.globals.length = w.globals.length ∧
    (∀ k, k < w.index → w'.globals[k]? = w.globals[k]?) ∧
    (w.file.globals s = some w.globals ∨ (∃ v ∈ vars, v.spec.relation = .global) →
      w'.file.globals s = some w'.globals) ∧
    ((∃ v ∈ vars, v.spec.relation = .global) → h.globalNames.length = w'.globals.length) := by
  induction vars generalizing w with
  | nil =>
    rw [writeVars] at e
    cases e
    simp [kindNames]
  | cons v vs ih =>
    rw [writeVars, Outcome.bind_eq_ok] at e
    obtain ⟨w1, h1, e⟩ := e
    obtain ⟨i1, i2, i3, i4, i5⟩ := ih (fun u hu => hsp u (List.mem_cons_of_mem _ hu)) e
    have hsame : v.spec.relation ≠ .global → w1.index = w.index ∧ w1.globals = w.globals ∧
        w1.file.globals = w.file.globals := by
      intro hr
      unfold writeVar at h1
      split at h1
      · exact absurd (by assumption) hr
      · next hrn =>
        obtain ⟨⟨_, _, _, f4⟩, f5, f6, _⟩ := writeNode_ok hrn h1
        exact ⟨f6, f5, funext fun s' => f4 s' (Or.inr hr)⟩
      · obtain ⟨⟨f1, f2, f3, f4, f5, f6⟩, _⟩ := writeElement_ok (hsp v List.mem_cons_self) h1
        exact ⟨f5, f4, f3⟩
      · cases h1
        exact ⟨rfl, rfl, rfl⟩
    rw [kindNames_cons]
    by_cases hr : v.spec.relation = .global
    · have hg : writeGlobal h s blocks v w = .ok w1 := by
        unfold writeVar at h1
        rw [hr] at h1
        exact h1
      obtain ⟨_, g1, g2, g3, g4, g5, _⟩ := writeGlobal_ok hg
      rw [if_pos hr]
      refine ⟨?_, by rw [i2, g3], ?_, ?_, ?_⟩
      · rw [i1, g4]
        simp [Var.components]
        omega
      · intro k hk
        rw [i3 k (by omega), g5 k hk]
      · intro _
        exact i4 (Or.inl g1)
      · intro _
        rw [g2, i2]
    · obtain ⟨a1, a2, a3⟩ := hsame hr
      rw [if_neg hr]
      refine ⟨by rw [i1, a1]; simp, by rw [i2, a2], ?_, ?_, ?_⟩
      · intro k hk
        rw [i3 k (by omega), a2]
      · intro hx
        apply i4
        rcases hx with hx | ⟨u, hu, hur⟩
        · left
          rw [a3, a2, hx]
        · right
          rcases List.mem_cons.mp hu with rfl | hu
          · exact absurd hur hr
          · exact ⟨u, hu, hur⟩
      · rintro ⟨u, hu, hur⟩
        rcases List.mem_cons.mp hu with rfl | hu
        · exact absurd hur hr
        · exact i5 ⟨u, hu, hur⟩

theorem writeVars_global {S : Site} {N : Names} {h : Header} {n s : Nat} {blocks : List Blk}
    {pre post : List Var} {v : Var} {w w' : Work} (hsp : SpecialScalars S (pre ++ v :: post))
    (e : writeVars S N h n s blocks (pre ++ v :: post) w = .ok w')
    (hr : v.spec.relation = .global) :
    w'.file.globals s = some w'.globals ∧ h.globalNames.length = w.globals.length ∧
    ∃ d, firstData blocks v = .ok d ∧ ∀ c, c < (endings v.spec.length).length →
      w'.globals[w.index + (kindNames .global pre).length + c]? = some (d c) := by
  obtain ⟨_, l0, _, t1, t2⟩ := writeVars_index hsp e
  have hex : ∃ u ∈ pre ++ v :: post, u.spec.relation = .global := ⟨v, by simp, hr⟩
  refine ⟨t1 (Or.inr hex), by rw [t2 hex, l0], ?_⟩
  obtain ⟨w1, h1, e⟩ := writeVars_append e
  rw [writeVars, Outcome.bind_eq_ok] at e
  obtain ⟨w2, h2, h3⟩ := e
  have hg : writeGlobal h s blocks v w1 = .ok w2 := by
    unfold writeVar at h2
    rw [hr] at h2
    exact h2
  obtain ⟨a1, a2, _⟩ := writeVars_index (hsp.sub fun u hu => by simp [hu]) h1
  obtain ⟨b1, b2, b3, _⟩ := writeVars_index (hsp.sub fun u hu => by simp [hu]) h3
  obtain ⟨_, g1, g2, g3, g4, g5, d, hd, g6⟩ := writeGlobal_ok hg
  refine ⟨d, hd, ?_⟩
  intro c hc
  rw [b3 _ (by omega), ← a1]
  exact g6 c hc

/-! ## Steps -/

theorem writeStep_frame {S : Site} {N : Names} {h : Header} {vars : List Var} {s : Nat} {t : ℝ}
    {blocks : List Blk} {r r' : Records} (hsp : SpecialScalars S vars)
    (e : writeStep S N h vars s t blocks r = .ok r') :
    r'.time s = some t ∧ ∀ s', s' ≠ s → r'.time s' = r.time s' ∧ r'.nodal s' = r.nodal s' ∧
      r'.elem s' = r.elem s' ∧ r'.globals s' = r.globals s' := by
  unfold writeStep at e
  rw [Outcome.bind_eq_ok] at e
  obtain ⟨w, hw, e⟩ := e
  cases e
  obtain ⟨f1, f2, f3, f4⟩ := writeVars_frame hsp hw
  refine ⟨by rw [f1]; simp [Records.putTime], ?_⟩
  intro s' hs
  refine ⟨?_, ?_, ?_, ?_⟩
  · rw [f1]
    simp [Records.putTime, Function.update_of_ne hs]
  · funext k
    rw [f2 s' k (Or.inl hs)]
    rfl
  · funext k b
    rw [f3 s' k b (Or.inl hs)]
    rfl
  · rw [f4 s' hs]
    rfl

theorem writeSteps_frame {S : Site} {N : Names} {h : Header} {vars : List Var} {s : Nat}
    {steps : List (ℝ × List Blk)} {r r' : Records} (hsp : SpecialScalars S vars)
    (e : writeSteps S N h vars s steps r = .ok r') (s' : Nat)
    (hs : s' < s ∨ s + steps.length ≤ s') : r'.time s' = r.time s' ∧ r'.nodal s' = r.nodal s' ∧
      r'.elem s' = r.elem s' ∧ r'.globals s' = r.globals s' := by
  induction steps generalizing s r with
  | nil =>
    rw [writeSteps] at e
    cases e
    exact ⟨rfl, rfl, rfl, rfl⟩
  | cons p steps ih =>
    obtain ⟨t, b⟩ := p
    rw [writeSteps, Outcome.bind_eq_ok] at e
    obtain ⟨r1, h1, e⟩ := e
    rw [List.length_cons] at hs
    obtain ⟨a1, a2, a3, a4⟩ := ih e (by omega)
    obtain ⟨b1, b2, b3, b4⟩ := (writeStep_frame hsp h1).2 s' (by omega)
    exact ⟨by rw [a1, b1], by rw [a2, b2], by rw [a3, b3], by rw [a4, b4]⟩

theorem writeSteps_split {S : Site} {N : Names} {h : Header} {vars : List Var} {s : Nat}
    {pre post : List (ℝ × List Blk)} {t : ℝ} {b : List Blk} {r r' : Records}
    (e : writeSteps S N h vars s (pre ++ (t, b) :: post) r = .ok r') :
    ∃ r1 r2, writeSteps S N h vars s pre r = .ok r1 ∧
      writeStep S N h vars (s + pre.length) t b r1 = .ok r2 ∧
      writeSteps S N h vars (s + pre.length + 1) post r2 = .ok r' := by
  induction pre generalizing s r with
  | nil =>
    rw [List.nil_append, writeSteps, Outcome.bind_eq_ok] at e
    obtain ⟨r1, h1, e⟩ := e
    exact ⟨r, r1, rfl, h1, e⟩
  | cons p pre ih =>
    obtain ⟨t', b'⟩ := p
    rw [List.cons_append, writeSteps, Outcome.bind_eq_ok] at e
    obtain ⟨r0, h0, e⟩ := e
    obtain ⟨r1, r2, h1, h2, h3⟩ := ih e
    rw [show s + 1 + pre.length = s + (pre.length + 1) by omega] at h2 h3
    refine ⟨r1, r2, ?_, h2, h3⟩
    rw [writeSteps, h0]
    simp only [Outcome.ok_bind]
    exact h1

theorem session_ok {S : Site} {vars : List Var} {steps : List (ℝ × List Blk)} {h : Header}
    {r : Records} (e : session S vars steps = .ok (some (h, r))) :
    ∃ t b rest N, steps = (t, b) :: rest ∧
      (if globalDataOnly vars then initializeGlobalDatabase vars else initializeDatabase S vars b)
        = .ok (h, N) ∧
      writeSteps S N h vars 1 steps Records.empty = .ok r := by
  unfold session at e
  split at e
  · cases e
  · next t b rest =>
    split at e
    · cases e
    · rw [Outcome.bind_eq_ok] at e
      obtain ⟨⟨h', N⟩, h1, e⟩ := e
      simp only [Outcome.bind_eq_ok] at e
      obtain ⟨f, h2, e⟩ := e
      cases e
      exact ⟨t, b, rest, N, rfl, h1, h2⟩

/-- What a session leaves in the file at step `i`. -/
theorem session_step {S : Site} {vars : List Var} {steps : List (ℝ × List Blk)} {h : Header}
    {r : Records} (hsp : SpecialScalars S vars) (e : session S vars steps = .ok (some (h, r)))
    {i : Nat} {t : ℝ} {blocks : List Blk} (hi : steps[i]? = some (t, blocks)) :
    ∃ b0 N r1 r2, (∃ t0 rest, steps = (t0, b0) :: rest) ∧
      (if globalDataOnly vars then initializeGlobalDatabase vars else initializeDatabase S vars b0)
        = .ok (h, N) ∧
      writeStep S N h vars (i + 1) t blocks r1 = .ok r2 ∧
      (∀ k b, r1.elem (i + 1) k b = none) ∧
      r.time (i + 1) = r2.time (i + 1) ∧ r.nodal (i + 1) = r2.nodal (i + 1) ∧
      r.elem (i + 1) = r2.elem (i + 1) ∧ r.globals (i + 1) = r2.globals (i + 1) := by
  obtain ⟨t0, b0, rest, N, hs, h1, h2⟩ := session_ok e
  obtain ⟨hlt, hget⟩ := List.getElem?_eq_some_iff.mp hi
  have hsplit : steps = steps.take i ++ (t, blocks) :: steps.drop (i + 1) := by
    rw [← hget, List.getElem_cons_drop, List.take_append_drop]
  have hlen : (steps.take i).length = i := by
    rw [List.length_take]
    omega
  rw [hsplit] at h2
  obtain ⟨r1, r2, g1, g2, g3⟩ := writeSteps_split h2
  rw [hlen, Nat.add_comm 1 i] at g2 g3
  refine ⟨b0, N, r1, r2, ⟨t0, rest, hs⟩, h1, g2, ?_, ?_⟩
  · intro k b
    obtain ⟨_, _, f3, _⟩ := writeSteps_frame hsp g1 (i + 1) (Or.inr (by rw [hlen]; omega))
    rw [f3]
    rfl
  · exact writeSteps_frame hsp g3 (i + 1) (Or.inl (by omega))

end Verif.Exodus
