import Verif.Exodus.NameLemmas

/-! # What one step writes -/

namespace Verif.Exodus

open Verif Verif.Field Verif.Mech

/-! ## The library -/

theorem putNodal_ok {r r' : Records} {h : Header} {s k : Nat} {vals : List ℝ}
    (e : r.putNodal h s k vals = .ok r') :
    (1 ≤ k ∧ k ≤ h.nodeNames.length) ∧ r'.nodal s k = some vals ∧
      (∀ s' k', s' ≠ s ∨ k' ≠ k → r'.nodal s' k' = r.nodal s' k') ∧
      r'.time = r.time ∧ r'.globals = r.globals ∧ r'.elem = r.elem := by
  unfold Records.putNodal at e
  split at e
  · next hk =>
    cases e
    refine ⟨hk, by simp, ?_, rfl, rfl, rfl⟩
    intro s' k' hne
    simp only
    by_cases hs : s' = s
    · subst hs
      rw [Function.update_self, Function.update_of_ne (by simpa using hne)]
    · rw [Function.update_of_ne hs]
  · cases e

theorem putElem_ok {r r' : Records} {h : Header} {s k : Nat} {b : Int} {vals : List ℝ}
    (e : r.putElem h s k b vals = .ok r') :
    (1 ≤ k ∧ k ≤ h.elemNames.length) ∧ r'.elem s k b = some vals ∧
      (∀ s' k' b', s' ≠ s ∨ k' ≠ k ∨ b' ≠ b → r'.elem s' k' b' = r.elem s' k' b') ∧
      r'.time = r.time ∧ r'.globals = r.globals ∧ r'.nodal = r.nodal := by
  unfold Records.putElem at e
  split at e
  · next hk =>
    cases e
    refine ⟨hk.1, by simp, ?_, rfl, rfl, rfl⟩
    intro s' k' b' hne
    simp only
    by_cases hs : s' = s
    · subst hs
      rw [Function.update_self]
      by_cases hk : k' = k
      · subst hk
        rw [Function.update_self, Function.update_of_ne (by simpa using hne)]
      · rw [Function.update_of_ne hk]
    · rw [Function.update_of_ne hs]
  · cases e

theorem putGlobals_ok {r r' : Records} {h : Header} {s : Nat} {vals : List ℝ}
    (e : r.putGlobals h s vals = .ok r') :
    vals.length = h.globalNames.length ∧ r'.globals s = some vals ∧
      (∀ s', s' ≠ s → r'.globals s' = r.globals s') ∧
      r'.time = r.time ∧ r'.nodal = r.nodal ∧ r'.elem = r.elem := by
  unfold Records.putGlobals at e
  split at e
  · next hk =>
    cases e
    refine ⟨hk, by simp, ?_, rfl, rfl, rfl⟩
    intro s' hne
    simp only
    rw [Function.update_of_ne hne]
  · cases e

/-! ## Nodal variables -/

theorem idxOf?_of_mem {α : Type} [DecidableEq α] {l : List α} {a : α} (h : a ∈ l) :
    l.idxOf? a = some (l.idxOf a) := by
  induction l with
  | nil => exact absurd h List.not_mem_nil
  | cons b l ih =>
    rw [List.idxOf?_cons, List.idxOf_cons]
    by_cases e : b = a
    · simp [e]
    · have h' : a ∈ l := (List.mem_cons.mp h).resolve_left fun h => e h.symm
      have hb : (b == a) = false := by simpa using e
      rw [hb, ih h']
      rfl

theorem lid_some {m : List Nat} {g l : Nat} (h : lid m g = some l) : m[l]? = some g := by
  unfold lid at h
  have hm : g ∈ m := by
    by_contra hm
    rw [List.idxOf?_eq_none_iff.mpr hm] at h
    cases h
  rw [idxOf?_of_mem hm] at h
  cases h
  exact List.getElem?_idxOf hm

theorem lid_of_mem {m : List Nat} {g : Nat} (h : g ∈ m) : ∃ l, lid m g = some l ∧ l < m.length :=
  ⟨m.idxOf g, idxOf?_of_mem h, List.idxOf_lt_length_of_mem h⟩

theorem lid_injective {m : List Nat} {g g' l : Nat} (h : lid m g = some l) (h' : lid m g' = some l) :
    g = g' := by
  have a := lid_some h
  have b := lid_some h'
  rw [a] at b
  exact Option.some.inj b

theorem scatter_ok {owned : List Nat} {n : Nat} {d : Nat → ℝ} {stride c : Nat} {gs : List Nat}
    {j : Nat} {buf buf' : Nat → ℝ} (h : scatter owned n d stride c gs j buf = .ok buf') :
    (∀ l, (∀ g ∈ gs, lid owned g ≠ some l) → buf' l = buf l) ∧
    (gs.Nodup → ∀ (i : Nat) (hi : i < gs.length),
      ∃ l, lid owned gs[i] = some l ∧ l < n ∧ buf' l = d (stride * (j + i) + c)) := by
  induction gs generalizing j buf with
  | nil =>
    rw [scatter] at h
    cases h
    exact ⟨fun _ _ => rfl, fun _ i hi => absurd hi (Nat.not_lt_zero _)⟩
  | cons g gs ih =>
    rw [scatter] at h
    split at h
    · cases h
    · next l hl =>
      split at h
      · next hn =>
        obtain ⟨h1, h2⟩ := ih h
        refine ⟨?_, ?_⟩
        · intro k hk
          rw [h1 k fun g' hg' => hk g' (List.mem_cons_of_mem _ hg')]
          rw [Function.update_of_ne]
          intro e
          exact hk g List.mem_cons_self (by rw [hl, e])
        · intro hnd i hi
          obtain ⟨hg, hgs⟩ := List.nodup_cons.mp hnd
          cases i with
          | zero =>
            refine ⟨l, hl, hn, ?_⟩
            rw [h1 l fun g' hg' e => hg (lid_injective hl e ▸ hg'), Function.update_self]
            simp
          | succ i =>
            obtain ⟨l', a, b, e⟩ := h2 hgs i (by simpa using hi)
            refine ⟨l', by simpa using a, b, ?_⟩
            rw [e]
            congr 2
            ring
      · cases h

/-- One of the temporary arrays after the loop over the blocks. -/
def scatterAll (S : Site) (n : Nat) (v : Var) (stride c : Nat) :
    List Blk → (Nat → ℝ) → Outcome (Nat → ℝ)
  | [], buf => .ok buf
  | b :: bs, buf =>
    match b.data v.spec.id (stepOf v.spec.temporal) with
    | none => .fail .rangeError
    | some d => do
      let x ← scatter S.owned n d stride c b.gids 0 buf
      scatterAll S n v stride c bs x

theorem scatterBlocks_scalar {S : Site} {n : Nat} {v : Var} {blocks : List Blk} {w w' : Work}
    (hv : v.spec.length = .scalar) (h : scatterBlocks S n v blocks w = .ok w') :
    ∃ x, scatterAll S n v 1 0 blocks w.x = .ok x ∧ w' = { w with x := x } := by
  induction blocks generalizing w with
  | nil =>
    rw [scatterBlocks] at h
    cases h
    exact ⟨_, rfl, rfl⟩
  | cons b bs ih =>
    rw [scatterBlocks] at h
    split at h
    · cases h
    · next d hd =>
      rw [hv] at h
      simp only [Outcome.bind_eq_ok] at h
      obtain ⟨w1, ⟨x, hx, e⟩, h⟩ := h
      cases e
      obtain ⟨x', hx', e'⟩ := ih h
      refine ⟨x', ?_, by rw [e']⟩
      rw [scatterAll, hd]
      simp only
      rw [hx]
      simp only [Outcome.ok_bind]
      exact hx'

theorem scatterBlocks_vector {S : Site} {n : Nat} {v : Var} {blocks : List Blk} {w w' : Work}
    (hv : v.spec.length = .vector) (h : scatterBlocks S n v blocks w = .ok w') :
    ∃ x y z, scatterAll S n v 3 0 blocks w.x = .ok x ∧ scatterAll S n v 3 1 blocks w.y = .ok y ∧
      scatterAll S n v 3 2 blocks w.z = .ok z ∧ w' = { w with x := x, y := y, z := z } := by
  induction blocks generalizing w with
  | nil =>
    rw [scatterBlocks] at h
    cases h
    exact ⟨_, _, _, rfl, rfl, rfl, rfl⟩
  | cons b bs ih =>
    rw [scatterBlocks] at h
    split at h
    · cases h
    · next d hd =>
      rw [hv] at h
      simp only [Outcome.bind_eq_ok] at h
      obtain ⟨w1, ⟨x, hx, y, hy, z, hz, e⟩, h⟩ := h
      cases e
      obtain ⟨x', y', z', hx', hy', hz', e'⟩ := ih h
      refine ⟨x', y', z', ?_, ?_, ?_, by rw [e']⟩ <;> rw [scatterAll, hd] <;> simp only
      · rw [hx]; simp only [Outcome.ok_bind]; exact hx'
      · rw [hy]; simp only [Outcome.ok_bind]; exact hy'
      · rw [hz]; simp only [Outcome.ok_bind]; exact hz'

theorem scatterAll_ok {S : Site} {n : Nat} {v : Var} {stride c : Nat} {blocks : List Blk}
    {buf buf' : Nat → ℝ} (h : scatterAll S n v stride c blocks buf = .ok buf') :
    (∀ l, (∀ g ∈ allIds blocks, lid S.owned g ≠ some l) → buf' l = buf l) ∧
    ((allIds blocks).Nodup → ∀ b ∈ blocks, ∀ (i : Nat) (hi : i < b.gids.length),
      ∃ d l, b.data v.spec.id (stepOf v.spec.temporal) = some d ∧
        lid S.owned b.gids[i] = some l ∧ l < n ∧ buf' l = d (stride * i + c)) := by
  induction blocks generalizing buf with
  | nil =>
    rw [scatterAll] at h
    cases h
    exact ⟨fun _ _ => rfl, fun _ b hb => absurd hb List.not_mem_nil⟩
  | cons b bs ih =>
    rw [scatterAll] at h
    split at h
    · cases h
    · next d hd =>
      rw [Outcome.bind_eq_ok] at h
      obtain ⟨x, hx, h⟩ := h
      obtain ⟨h1, h2⟩ := ih h
      obtain ⟨s1, s2⟩ := scatter_ok hx
      have hcons : allIds (b :: bs) = b.gids ++ allIds bs := by simp [allIds]
      refine ⟨?_, ?_⟩
      · intro l hl
        rw [h1 l fun g hg => hl g (by rw [hcons]; exact List.mem_append_right _ hg)]
        exact s1 l fun g hg => hl g (by rw [hcons]; exact List.mem_append_left _ hg)
      · intro hnd b' hb' i hi
        rw [hcons, List.nodup_append] at hnd
        rcases List.mem_cons.mp hb' with rfl | hb'
        · obtain ⟨l, a1, a2, a3⟩ := s2 hnd.1 i hi
          refine ⟨d, l, hd, a1, a2, ?_⟩
          rw [h1 l ?_, a3]
          · simp
          · intro g hg e
            exact hnd.2.2 _ (List.getElem_mem hi) g hg (lid_injective a1 e)
        · exact h2 hnd.2.1 b' hb' i hi

/-- A list of values holds component `c` of a variable: at the position of each point in the list of
owned points there is the value of the point. -/
def HoldsNode (S : Site) (v : Var) (blocks : List Blk) (c : Nat) (vals : List ℝ) : Prop :=
  ∀ b ∈ blocks, ∀ (i : Nat) (hi : i < b.gids.length), ∃ l y, lid S.owned b.gids[i] = some l ∧
    fieldValue b v c i = some y ∧ vals[l]? = some y

theorem scatterAll_holds {S : Site} {n : Nat} {v : Var} {stride c : Nat} {blocks : List Blk}
    {buf buf' : Nat → ℝ} (h : scatterAll S n v stride c blocks buf = .ok buf')
    (hn : (allIds blocks).Nodup) (hs : stride = (endings v.spec.length).length) :
    HoldsNode S v blocks c (entries n buf') := by
  intro b hb i hi
  obtain ⟨d, l, hd, hl, hln, e⟩ := (scatterAll_ok h).2 hn b hb i hi
  refine ⟨l, d (stride * i + c), hl, ?_, ?_⟩
  · unfold fieldValue
    rw [hd, ← hs]
    rfl
  · unfold entries
    rw [List.getElem?_map, List.getElem?_range hln]
    simp [e]

/-- The records that a variable may change. -/
def Frame (N : Names) (s : Nat) (v : Var) (r r' : Records) : Prop :=
  r'.time = r.time ∧
  (∀ s' k, (s' ≠ s ∨ v.spec.relation ≠ .node ∨ ∀ a ∈ v.components, k ≠ N.node.get a) →
    r'.nodal s' k = r.nodal s' k) ∧
  (∀ s' k b, (s' ≠ s ∨ v.spec.relation ≠ .element ∨ ∀ a ∈ v.components, k ≠ N.elem.get a) →
    r'.elem s' k b = r.elem s' k b) ∧
  (∀ s', (s' ≠ s ∨ v.spec.relation ≠ .global) → r'.globals s' = r.globals s')

theorem writeNode_ok {S : Site} {N : Names} {h : Header} {n s : Nat} {blocks : List Blk} {v : Var}
    {w w' : Work} (hr : v.spec.relation = .node) (e : writeNode S N h n s blocks v w = .ok w') :
    Frame N s v w.file w'.file ∧ w'.globals = w.globals ∧ w'.index = w.index ∧
    ((allIds blocks).Nodup → (v.components.map N.node.get).Nodup → Allowed v →
      ∀ (c : Nat) (hc : c < (endings v.spec.length).length),
        N.node.get (v.name ++ (endings v.spec.length)[c]) ≤ h.nodeNames.length ∧
        ∃ vals, w'.file.nodal s (N.node.get (v.name ++ (endings v.spec.length)[c])) = some vals ∧
          HoldsNode S v blocks c vals) := by
  unfold writeNode at e
  rw [Outcome.bind_eq_ok] at e
  obtain ⟨w1, h1, e⟩ := e
  have hother : v.spec.length ≠ .scalar → v.spec.length ≠ .vector →
      ∀ (bl : List Blk) (w w1 : Work), scatterBlocks S n v bl w = .ok w1 → w1 = w := by
    intro hs hv bl
    induction bl with
    | nil => intro w w1 h; rw [scatterBlocks] at h; cases h; rfl
    | cons b bs ih =>
      intro w w1 h
      rw [scatterBlocks] at h
      split at h
      · cases h
      · rw [Outcome.bind_eq_ok] at h
        obtain ⟨w2, h2, h⟩ := h
        have : w2 = w := by
          split at h2
          · exact absurd (by assumption) hs
          · exact absurd (by assumption) hv
          · cases h2; rfl
        subst this
        exact ih _ _ h
  split at e
  · next hl =>
    rw [Outcome.bind_eq_ok] at e
    obtain ⟨f, hf, e⟩ := e
    cases e
    obtain ⟨x, hx, rfl⟩ := scatterBlocks_scalar hl h1
    obtain ⟨p0, p1, p2, p3, p4, p5⟩ := putNodal_ok hf
    have hcomp : v.components = [v.name] := by simp [Var.components, hl, endings]
    refine ⟨⟨p3, ?_, ?_, ?_⟩, rfl, rfl, ?_⟩
    · intro s' k hk
      apply p2
      rcases hk with hk | hk | hk
      · exact Or.inl hk
      · exact absurd hr hk
      · exact Or.inr (hk v.name (by simp [hcomp]))
    · intro s' k b _; rw [p5]
    · intro s' _; rw [p4]
    · intro hn _ _ c hc
      simp only [hl, endings] at hc ⊢
      have : c = 0 := by simpa using hc
      subst this
      simp only [List.getElem_cons_zero, String.append_empty]
      exact ⟨p0.2, _, p1, scatterAll_holds hx hn (by rw [hl]; rfl)⟩
  · next hl =>
    simp only [Outcome.bind_eq_ok] at e
    obtain ⟨f1, hf1, f2, hf2, f3, hf3, e⟩ := e
    cases e
    obtain ⟨x, y, z, hx, hy, hz, rfl⟩ := scatterBlocks_vector hl h1
    obtain ⟨p0, p1, p2, p3, p4, p5⟩ := putNodal_ok hf1
    obtain ⟨q0, q1, q2, q3, q4, q5⟩ := putNodal_ok hf2
    obtain ⟨t0, t1, t2, t3, t4, t5⟩ := putNodal_ok hf3
    have hcomp : v.components = [v.name ++ "X", v.name ++ "Y", v.name ++ "Z"] := by
      simp [Var.components, hl, endings]
    refine ⟨⟨by rw [t3, q3, p3], ?_, ?_, ?_⟩, rfl, rfl, ?_⟩
    · intro s' k hk
      have : s' ≠ s ∨ ∀ a ∈ v.components, k ≠ N.node.get a := by
        rcases hk with hk | hk | hk
        · exact Or.inl hk
        · exact absurd hr hk
        · exact Or.inr hk
      rw [hcomp] at this
      rw [t2 s' k (this.imp id fun h => h _ (by simp)), q2 s' k (this.imp id fun h => h _ (by simp)),
        p2 s' k (this.imp id fun h => h _ (by simp))]
    · intro s' k b _; rw [t5, q5, p5]
    · intro s' _; rw [t4, q4, p4]
    · intro hn hd _ c hc
      rw [hcomp] at hd
      simp only [List.map_cons, List.map_nil, List.nodup_cons, List.mem_cons, List.not_mem_nil,
        or_false, not_or] at hd
      have hv3 : 3 = (endings v.spec.length).length := by rw [hl]; rfl
      have hX := scatterAll_holds hx hn hv3
      have hY := scatterAll_holds hy hn hv3
      have hZ := scatterAll_holds hz hn hv3
      simp only [hl, endings] at hc ⊢
      have hc3 : c = 0 ∨ c = 1 ∨ c = 2 := by
        have : c < 3 := by simpa using hc
        omega
      rcases hc3 with rfl | rfl | rfl
      · refine ⟨p0.2, _, ?_, hX⟩
        simp only [List.getElem_cons_zero]
        rw [t2 _ _ (Or.inr hd.1.2), q2 _ _ (Or.inr hd.1.1), p1]
      · refine ⟨q0.2, _, ?_, hY⟩
        simp only [List.getElem_cons_succ, List.getElem_cons_zero]
        rw [t2 _ _ (Or.inr hd.2.1), q1]
      · refine ⟨t0.2, _, ?_, hZ⟩
        simp only [List.getElem_cons_succ, List.getElem_cons_zero]
        rw [t1]
  · next hs hv =>
    cases e
    have := hother (fun e => hs e) (fun e => hv e) _ _ _ h1
    subst this
    refine ⟨⟨rfl, fun _ _ _ => rfl, fun _ _ _ _ => rfl, fun _ _ => rfl⟩, rfl, rfl, ?_⟩
    intro _ _ ha
    unfold Allowed at ha
    rw [hr] at ha
    rcases ha.2.2 with h | h | h
    · exact absurd h hs
    · exact absurd h hv
    · cases h

end Verif.Exodus
