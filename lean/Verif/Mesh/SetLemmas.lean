import Verif.Mesh.ExodusLemmas

/-! Lemmas for C123. -/

noncomputable section

namespace Verif.Mesh

open Verif Verif.Mech Verif.Neigh Verif.Geometry
open scoped Classical

/-- Entry `c` of the table contains `e`. -/
def At (lists : List (List Nat)) (c e : Nat) : Prop := ∃ l, lists[c]? = some l ∧ e ∈ l

theorem at_set {lists : List (List Nat)} {c : Nat} {l : List Nat} (h : lists[c]? = some l) (e c' e' : Nat) :
    At (lists.set c (l ++ [e])) c' e' ↔ At lists c' e' ∨ (e' = e ∧ c' = c) := by
  have hc : c < lists.length := (List.getElem?_eq_some_iff.mp h).1
  unfold At
  by_cases hcc : c = c'
  · subst hcc
    rw [List.getElem?_set_self hc, h]
    simp
  · rw [List.getElem?_set_ne hcc]
    simp [Ne.symm hcc]

theorem addToNodes_ok {b : ElemBlock} {iElem n : Nat} (loc : Nat)
    (h : ∀ i < b.nodesPerElem, ∃ c, HasNode b iElem i c ∧ c < n) (m : Nat) :
    ∀ (i : Nat) (lists : List (List Nat)), i + m ≤ b.nodesPerElem → lists.length = n →
      ∃ out, addToNodes b iElem loc i m lists = .ok out ∧ out.length = n ∧
        ∀ c e, At out c e ↔ At lists c e ∨ (e = loc ∧ ∃ j, i ≤ j ∧ j < i + m ∧ HasNode b iElem j c) := by
  induction m with
  | zero =>
    intro i lists _ hl
    refine ⟨lists, rfl, hl, fun c e => ⟨Or.inl, ?_⟩⟩
    rintro (h | ⟨_, j, h1, h2, _⟩)
    · exact h
    · omega
  | succ m ih =>
    intro i lists hi hl
    obtain ⟨c, h1, h2⟩ := h i (by omega)
    have hget : lists[c]? = some lists[c] := List.getElem?_eq_getElem (by omega)
    obtain ⟨out, e1, e2, e3⟩ := ih (i + 1) (lists.set c (lists[c] ++ [loc])) (by omega)
      (by rw [List.length_set]; exact hl)
    refine ⟨out, ?_, e2, ?_⟩
    · rw [addToNodes, nodeId_eq h1]
      simp only [Outcome.ok_bind]
      rw [readAt_eq_ok.2 hget]
      simp only [Outcome.ok_bind]
      exact e1
    · intro c' e'
      rw [e3, at_set hget]
      constructor
      · rintro ((h | ⟨h, h'⟩) | ⟨h, j, hj1, hj2, hj3⟩)
        · exact .inl h
        · exact .inr ⟨h, i, le_refl _, by omega, h' ▸ h1⟩
        · exact .inr ⟨h, j, by omega, by omega, hj3⟩
      · rintro (h | ⟨h, j, hj1, hj2, hj3⟩)
        · exact .inl (.inl h)
        · by_cases hji : j = i
          · subst hji
            have : c' = c := by
              have := hj3.2
              rw [h1.2] at this
              injection this with this
              omega
            exact .inl (.inr ⟨h, this⟩)
          · exact .inr ⟨h, j, by omega, by omega, hj3⟩

theorem addElements_ok {b : ElemBlock} {n : Nat}
    (h : ∀ e < b.numElem, ∀ i < b.nodesPerElem, ∃ c, HasNode b e i c ∧ c < n) (m : Nat) :
    ∀ (iElem next : Nat) (lists : List (List Nat)), iElem + m ≤ b.numElem → lists.length = n →
      ∃ out, addElements b m iElem next lists = .ok out ∧ out.length = n ∧
        ∀ c e, At out c e ↔ At lists c e ∨ ∃ k < m, e = next + k ∧ ∃ j, HasNode b (iElem + k) j c := by
  induction m with
  | zero =>
    intro iElem next lists _ hl
    refine ⟨lists, rfl, hl, fun c e => ⟨Or.inl, ?_⟩⟩
    rintro (h | ⟨k, h, _⟩)
    · exact h
    · omega
  | succ m ih =>
    intro iElem next lists hi hl
    obtain ⟨mid, a1, a2, a3⟩ := addToNodes_ok next (h iElem (by omega)) b.nodesPerElem 0 lists (by omega) hl
    obtain ⟨out, e1, e2, e3⟩ := ih (iElem + 1) (next + 1) mid (by omega) a2
    refine ⟨out, ?_, e2, ?_⟩
    · rw [addElements, a1]
      simp only [Outcome.ok_bind]
      exact e1
    · intro c e
      rw [e3, a3]
      constructor
      · rintro ((h | ⟨h, j, _, _, hj⟩) | ⟨k, hk, h, j, hj⟩)
        · exact .inl h
        · exact .inr ⟨0, by omega, by omega, j, hj⟩
        · exact .inr ⟨k + 1, by omega, by omega, j, by rwa [show iElem + (k + 1) = iElem + 1 + k by omega]⟩
      · rintro (h | ⟨k, hk, h, j, hj⟩)
        · exact .inl (.inl h)
        · rcases k with _ | k
          · exact .inl (.inr ⟨by omega, j, by omega, by have := hj.1; omega, hj⟩)
          · exact .inr ⟨k, by omega, by omega, j, by rwa [show iElem + 1 + k = iElem + (k + 1) by omega]⟩

theorem addBlocks_ok {n : Nat} (bs : List ElemBlock)
    (h : ∀ b ∈ bs, ∀ e < b.numElem, ∀ i < b.nodesPerElem, ∃ c, HasNode b e i c ∧ c < n) :
    ∀ (next : Nat) (lists : List (List Nat)), lists.length = n →
      ∃ out, addBlocks bs next lists = .ok out ∧ out.length = n ∧
        ∀ c e, At out c e ↔ At lists c e ∨
          ∃ k b i, e = next + k ∧ (elements bs)[k]? = some (b, i) ∧ ∃ j, HasNode b i j c := by
  induction bs with
  | nil =>
    intro next lists hl
    exact ⟨lists, rfl, hl, fun c e => by simp [elements]⟩
  | cons b bs ih =>
    intro next lists hl
    obtain ⟨mid, a1, a2, a3⟩ := addElements_ok (h b List.mem_cons_self) b.numElem 0 next lists (by omega) hl
    obtain ⟨out, e1, e2, e3⟩ := ih (fun c hc => h c (List.mem_cons_of_mem _ hc)) (next + b.numElem) mid a2
    refine ⟨out, ?_, e2, ?_⟩
    · rw [addBlocks, a1]
      simp only [Outcome.ok_bind]
      exact e1
    · intro c e
      rw [e3, a3]
      constructor
      · rintro ((h | ⟨k, hk, h, j, hj⟩) | ⟨k, b', i, h, hk, hj⟩)
        · exact .inl h
        · refine .inr ⟨k, b, k, h, ?_, j, by simpa using hj⟩
          rw [elements_cons, List.getElem?_append_left (by simpa using hk), List.getElem?_map,
            List.getElem?_range hk]
          rfl
        · refine .inr ⟨b.numElem + k, b', i, by omega, ?_, hj⟩
          rw [elements_cons, List.getElem?_append_right (by simp)]
          simpa using hk
      · rintro (h | ⟨k, b', i, h, hk, hj⟩)
        · exact .inl (.inl h)
        · by_cases hlt : k < b.numElem
          · rw [elements_cons, List.getElem?_append_left (by simpa using hlt), List.getElem?_map,
              List.getElem?_range hlt] at hk
            simp only [Option.map_some, Option.some.injEq, Prod.mk.injEq] at hk
            obtain ⟨rfl, rfl⟩ := hk
            obtain ⟨j, hj⟩ := hj
            exact .inl (.inr ⟨k, hlt, h, j, by simpa using hj⟩)
          · rw [elements_cons, List.getElem?_append_right (by simpa using hlt), List.length_map,
              List.length_range] at hk
            exact .inr ⟨k - b.numElem, b', i, by omega, hk, hj⟩

theorem insertElements_ok (ids : List Nat) (es : List Nat) (hes : ∀ e ∈ es, e < ids.length) :
    ∀ set : List Nat, set.Nodup → ∃ out, insertElements ids es set = .ok out ∧ out.Nodup ∧
      ∀ gid, gid ∈ out ↔ gid ∈ set ∨ ∃ e ∈ es, ids[e]? = some gid := by
  induction es with
  | nil =>
    intro set hs
    exact ⟨set, rfl, hs, by simp⟩
  | cons e es ih =>
    intro set hs
    have he := hes e List.mem_cons_self
    have hget : ids[e]? = some ids[e] := List.getElem?_eq_getElem he
    obtain ⟨out, h1, h2, h3⟩ := ih (fun x hx => hes x (List.mem_cons_of_mem _ hx))
      (if ids[e] ∈ set then set else set ++ [ids[e]]) (by
        by_cases hm : ids[e] ∈ set
        · rwa [if_pos hm]
        · rw [if_neg hm]
          exact List.nodup_append.2 ⟨hs, by simp, by
            intro a ha b hb
            rw [List.mem_singleton] at hb
            subst hb
            rintro rfl
            exact hm ha⟩)
    refine ⟨out, ?_, h2, ?_⟩
    · rw [insertElements, readAt_eq_ok.2 hget]
      simp only [Outcome.ok_bind]
      convert h1
    · intro gid
      rw [h3]
      have hmem : gid ∈ (if ids[e] ∈ set then set else set ++ [ids[e]]) ↔ gid ∈ set ∨ gid = ids[e] := by
        by_cases hm : ids[e] ∈ set
        · rw [if_pos hm]
          constructor
          · exact Or.inl
          · rintro (h | rfl)
            · exact h
            · exact hm
        · rw [if_neg hm, List.mem_append, List.mem_singleton]
      rw [hmem]
      constructor
      · rintro ((h | h) | ⟨x, hx, h⟩)
        · exact .inl h
        · exact .inr ⟨e, List.mem_cons_self, by rw [hget, h]⟩
        · exact .inr ⟨x, List.mem_cons_of_mem _ hx, h⟩
      · rintro (h | ⟨x, hx, h⟩)
        · exact .inl (.inl h)
        · rcases List.mem_cons.1 hx with rfl | hx
          · rw [hget] at h
            injection h with h
            exact .inl (.inr h.symm)
          · exact .inr ⟨x, hx, h⟩

theorem convertSet_ok (ids : List Nat) (lists : List (List Nat)) (hl : ∀ c e, At lists c e → e < ids.length)
    (nodes : List Nat) (hn : ∀ c ∈ nodes, 1 ≤ c ∧ c ≤ lists.length) :
    ∀ set : List Nat, set.Nodup → ∃ out, convertSet ids lists nodes set = .ok out ∧ out.Nodup ∧
      ∀ gid, gid ∈ out ↔ gid ∈ set ∨ ∃ c e, c + 1 ∈ nodes ∧ At lists c e ∧ ids[e]? = some gid := by
  induction nodes with
  | nil =>
    intro set hs
    exact ⟨set, rfl, hs, by simp⟩
  | cons c nodes ih =>
    intro set hs
    have hc := hn c List.mem_cons_self
    rcases c with _ | c
    · omega
    have hget : lists[c]? = some lists[c] := List.getElem?_eq_getElem (by omega)
    obtain ⟨mid, a1, a2, a3⟩ := insertElements_ok ids lists[c] (fun e he => hl c e ⟨_, hget, he⟩) set hs
    obtain ⟨out, h1, h2, h3⟩ := ih (fun x hx => hn x (List.mem_cons_of_mem _ hx)) mid a2
    refine ⟨out, ?_, h2, ?_⟩
    · rw [convertSet, readAt_eq_ok.2 hget]
      simp only [Outcome.ok_bind]
      rw [a1]
      simp only [Outcome.ok_bind]
      exact h1
    · intro gid
      rw [h3, a3]
      constructor
      · rintro ((h | ⟨e, he, h⟩) | ⟨x, e, hx, he, h⟩)
        · exact .inl h
        · exact .inr ⟨c, e, List.mem_cons_self, ⟨_, hget, he⟩, h⟩
        · exact .inr ⟨x, e, List.mem_cons_of_mem _ hx, he, h⟩
      · rintro (h | ⟨x, e, hx, he, h⟩)
        · exact .inl (.inl h)
        · rcases List.mem_cons.1 hx with hx | hx
          · obtain rfl : x = c := by omega
            obtain ⟨l, hl1, hl2⟩ := he
            rw [hget] at hl1
            injection hl1 with hl1
            exact .inl (.inr ⟨e, hl1 ▸ hl2, h⟩)
          · exact .inr ⟨x, e, hx, he, h⟩

theorem checkTitles_ok (ss : List NodeSet) : ∀ seen : List String, (seen ++ ss.map NodeSet.title).Nodup →
    checkTitles ss seen = .ok () := by
  induction ss with
  | nil => intros; rfl
  | cons s ss ih =>
    intro seen h
    rw [checkTitles, if_neg]
    · apply ih
      rw [List.append_assoc]
      exact h
    · intro hm
      rw [List.map_cons, List.nodup_append] at h
      exact h.2.2 _ hm _ List.mem_cons_self rfl

theorem checkTitles_fail (ss : List NodeSet) : ∀ seen : List String, seen.Nodup →
    ¬ (seen ++ ss.map NodeSet.title).Nodup → checkTitles ss seen = .fail .terminate := by
  induction ss with
  | nil =>
    intro seen h h'
    simp [h] at h'
  | cons s ss ih =>
    intro seen h h'
    rw [checkTitles]
    by_cases hm : s.title ∈ seen
    · rw [if_pos hm]
    · rw [if_neg hm]
      apply ih
      · exact List.nodup_append.2 ⟨h, by simp, by
          intro a ha b hb
          rw [List.mem_singleton] at hb
          subst hb
          rintro rfl
          exact hm ha⟩
      · rw [List.append_assoc]
        exact h'

end Verif.Mesh
