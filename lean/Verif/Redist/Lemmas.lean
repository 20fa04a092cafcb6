import Verif.Redist.Spec
import Mathlib.Tactic.Ring
import Mathlib.Algebra.BigOperators.Group.List.Basic

namespace Verif.Redist

open Verif

variable {α : Type}

theorem copyBlock_spec (src : List α) (sp tp k : Nat) (tgt : List α)
    (h1 : sp + k ≤ src.length) (h2 : tp + k ≤ tgt.length) :
    ∃ t, copyBlock src sp tp k tgt = .ok t ∧ t.length = tgt.length ∧
      ∀ j, t[j]? = if tp ≤ j ∧ j < tp + k then src[sp + (j - tp)]? else tgt[j]? := by
  induction k with
  | zero => exact ⟨tgt, rfl, rfl, fun j => by rw [if_neg (by omega)]⟩
  | succ k ih =>
    obtain ⟨t, e, hl, hv⟩ := ih (by omega) (by omega)
    have hs : src[sp + k]? = some (src[sp + k]'(by omega)) := List.getElem?_eq_getElem (by omega)
    refine ⟨t.set (tp + k) (src[sp + k]'(by omega)), ?_, by simpa using hl, ?_⟩
    · simp only [copyBlock, e, hs]
      rw [if_pos (by omega)]
    · intro j
      rw [List.getElem?_set, hv]
      by_cases hj : tp + k = j
      · subst hj
        rw [if_pos rfl, if_pos (by omega), if_pos (by omega), ← hs]
        congr 1; omega
      · rw [if_neg hj]
        by_cases hj' : tp ≤ j ∧ j < tp + k
        · rw [if_pos hj', if_pos (by omega)]
        · rw [if_neg hj', if_neg (by omega)]

theorem firstPoint_succ (m : BlockMap) (l : Nat) (h : l < m.sizes.length) :
    m.firstPoint (l + 1) = m.firstPoint l + m.sizes[l] := by
  unfold BlockMap.firstPoint
  rw [List.take_add_one, List.getElem?_eq_getElem h, Option.toList_some, List.sum_append,
    List.sum_singleton]

theorem firstPoint_le (m : BlockMap) (l : Nat) : m.firstPoint l ≤ m.numPoints := by
  unfold BlockMap.firstPoint BlockMap.numPoints
  conv_rhs => rw [← List.take_append_drop l m.sizes, List.sum_append]
  omega

theorem firstPoint_mono (m : BlockMap) {l l' : Nat} (h : l ≤ l') :
    m.firstPoint l ≤ m.firstPoint l' := by
  unfold BlockMap.firstPoint
  have : (m.sizes.take l').take l = m.sizes.take l := by rw [List.take_take]; congr 1; omega
  rw [← this]
  conv_rhs => rw [← List.take_append_drop l (m.sizes.take l'), List.sum_append]
  omega

theorem block_le (m : BlockMap) (l : Nat) (h : l < m.sizes.length) :
    m.firstPoint l + m.sizes[l] ≤ m.numPoints := by
  rw [← firstPoint_succ m l h]; exact firstPoint_le m _

/-- The loop over the target elements. -/
theorem copyElements_ok (sm tm : BlockMap) (src : List α) (hsm : sm.WF)
    (hsrc : src.length = sm.numPoints) (l : Nat) (gids : List Nat) (tgt : List α)
    (hl : l + gids.length = tm.sizes.length) (htgt : tgt.length = tm.numPoints)
    (hg : ∀ k (hk : k < gids.length), gids[k] ∈ sm.gids ∧
      sm.sizes[sm.gids.idxOf gids[k]]? = some (tm.sizes[l + k]'(by omega))) :
    ∃ t, copyElements sm tm src l gids tgt = .ok t ∧ t.length = tgt.length ∧
      (∀ j, j < tm.firstPoint l → t[j]? = tgt[j]?) ∧
      ∀ k (hk : k < gids.length) i, i < tm.sizes[l + k]'(by omega) →
        t[tm.firstPoint (l + k) + i]? = src[sm.firstPoint (sm.gids.idxOf gids[k]) + i]? := by
  induction gids generalizing l tgt with
  | nil => exact ⟨tgt, rfl, rfl, fun _ _ => rfl, fun k hk => by simp at hk⟩
  | cons gid gids ih =>
    simp only [List.length_cons] at hl
    have hl' : l < tm.sizes.length := by omega
    obtain ⟨hm, hsz⟩ := hg 0 (by simp)
    simp only [List.getElem_cons_zero, Nat.add_zero] at hm hsz
    have hsi : sm.gids.idxOf gid < sm.sizes.length := by
      rw [hsm.len]; exact List.idxOf_lt_length_of_mem hm
    have hsz' : sm.sizes[sm.gids.idxOf gid] = tm.sizes[l] := by
      rw [List.getElem?_eq_getElem hsi] at hsz; exact Option.some.inj hsz
    have b1 := block_le sm _ hsi
    have b2 := block_le tm l hl'
    obtain ⟨t1, e1, l1, v1⟩ := copyBlock_spec src (sm.firstPoint (sm.gids.idxOf gid))
      (tm.firstPoint l) tm.sizes[l] tgt (by omega) (by omega)
    have e1' : copyElement sm tm src l gid tgt = .ok t1 := by
      unfold copyElement BlockMap.lid
      rw [if_pos hm]
      simp only [hsz, List.getElem?_eq_getElem hl']
      simpa using e1
    obtain ⟨t, e, lt, v0, v⟩ := ih (l + 1) t1 (by omega) (by omega) (by
      intro k hk
      have := hg (k + 1) (by simpa using hk)
      simp only [List.getElem_cons_succ] at this
      refine ⟨this.1, ?_⟩
      rw [this.2]; congr 2; omega)
    have hs := firstPoint_succ tm l hl'
    refine ⟨t, by simp only [copyElements, e1', e], by omega, ?_, ?_⟩
    · intro j hj
      rw [v0 j (by omega), v1, if_neg (by omega)]
    · intro k hk i hi
      cases k with
      | zero =>
        simp only [Nat.add_zero, List.getElem_cons_zero] at hi ⊢
        rw [v0 _ (by omega), v1, if_pos (by omega)]
        congr 1; omega
      | succ k =>
        simp only [List.getElem_cons_succ]
        have := v k (by simpa using hk) i (by
          have : l + 1 + k = l + (k + 1) := by omega
          simp only [this]; exact hi)
        rw [show l + (k + 1) = l + 1 + k by omega]
        exact this

/-- Conversely, a missing id or a wrong size is reported, never undefined. -/
theorem copyElements_bad (sm tm : BlockMap) (src : List α) (hsm : sm.WF)
    (hsrc : src.length = sm.numPoints) (l : Nat) (gids : List Nat) (tgt : List α)
    (hl : l + gids.length = tm.sizes.length) (htgt : tgt.length = tm.numPoints)
    (hb : ¬ ∀ k (hk : k < gids.length), gids[k] ∈ sm.gids ∧
      sm.sizes[sm.gids.idxOf gids[k]]? = some (tm.sizes[l + k]'(by omega))) :
    copyElements sm tm src l gids tgt = .fail .rangeError := by
  induction gids generalizing l tgt with
  | nil => exact absurd (fun k hk => by simp at hk) hb
  | cons gid gids ih =>
    simp only [List.length_cons] at hl
    have hl' : l < tm.sizes.length := by omega
    by_cases hm : gid ∈ sm.gids
    · have hsi : sm.gids.idxOf gid < sm.sizes.length := by
        rw [hsm.len]; exact List.idxOf_lt_length_of_mem hm
      by_cases hsz : sm.sizes[sm.gids.idxOf gid] = tm.sizes[l]
      · have b1 := block_le sm _ hsi
        have b2 := block_le tm l hl'
        obtain ⟨t1, e1, l1, v1⟩ := copyBlock_spec src (sm.firstPoint (sm.gids.idxOf gid))
          (tm.firstPoint l) tm.sizes[l] tgt (by omega) (by omega)
        have e1' : copyElement sm tm src l gid tgt = .ok t1 := by
          unfold copyElement BlockMap.lid
          rw [if_pos hm]
          simp only [List.getElem?_eq_getElem hsi, List.getElem?_eq_getElem hl', hsz]
          simpa using e1
        simp only [copyElements, e1']
        apply ih (l + 1) t1 (by omega) (by omega)
        intro hall
        apply hb
        intro k hk
        cases k with
        | zero =>
          simp only [Nat.add_zero, List.getElem_cons_zero]
          exact ⟨hm, by rw [List.getElem?_eq_getElem hsi, hsz]⟩
        | succ k =>
          simp only [List.getElem_cons_succ]
          have := hall k (by simpa using hk)
          refine ⟨this.1, ?_⟩
          rw [this.2]; congr 2; omega
      · have : copyElement sm tm src l gid tgt = .fail .rangeError := by
          unfold copyElement BlockMap.lid
          rw [if_pos hm]
          simp only [List.getElem?_eq_getElem hsi, List.getElem?_eq_getElem hl']
          rw [if_pos hsz]
        simp only [copyElements, this]
    · have : copyElement sm tm src l gid tgt = .fail .rangeError := by
        unfold copyElement BlockMap.lid
        rw [if_neg hm]
      simp only [copyElements, this]

/-- Every target element exists in the source with the same size. -/
def Covers (sm tm : BlockMap) : Prop :=
  ∀ gid ∈ tm.gids, gid ∈ sm.gids ∧ sizeOf? sm gid = sizeOf? tm gid

theorem covers_iff {sm tm : BlockMap} (htm : tm.WF) : Covers sm tm ↔
    ∀ k (hk : k < tm.gids.length), tm.gids[k] ∈ sm.gids ∧
      sm.sizes[sm.gids.idxOf tm.gids[k]]? = some (tm.sizes[0 + k]'(by have := htm.len; omega)) := by
  have key : ∀ k (hk : k < tm.gids.length), tm.gids.idxOf tm.gids[k] = k := fun k hk =>
    htm.nodup.idxOf_getElem k hk
  have hlen := htm.len
  constructor
  · intro h k hk
    obtain ⟨h1, h2⟩ := h _ (List.getElem_mem hk)
    refine ⟨h1, ?_⟩
    unfold sizeOf? at h2
    rw [if_pos h1, if_pos (List.getElem_mem hk), key k hk] at h2
    rw [h2, List.getElem?_eq_getElem (by omega)]
    simp
  · intro h gid hg
    obtain ⟨k, hk, rfl⟩ := List.getElem_of_mem hg
    obtain ⟨h1, h2⟩ := h k hk
    refine ⟨h1, ?_⟩
    unfold sizeOf?
    rw [if_pos h1, if_pos hg, key k hk, h2, List.getElem?_eq_getElem (by omega)]
    simp

/-- Two columns agree on every element of the target map. -/
def Agrees (sm : BlockMap) (sv : List α) (tm : BlockMap) (tv : List α) : Prop :=
  ∀ gid ∈ tm.gids, gid ∈ sm.gids ∧ ∀ i, entry tm tv gid i = entry sm sv gid i

theorem copyColumn_ok {sm tm : BlockMap} (hsm : sm.WF) (htm : tm.WF) (hc : Covers sm tm)
    {src tgt : List α} (hsrc : src.length = sm.numPoints) (htgt : tgt.length = tm.numPoints) :
    ∃ t, copyElements sm tm src 0 tm.gids tgt = .ok t ∧ t.length = tgt.length ∧
      Agrees sm src tm t := by
  have hlen := htm.len
  obtain ⟨t, e, l, -, v⟩ := copyElements_ok sm tm src hsm hsrc 0 tm.gids tgt (by omega) htgt
    ((covers_iff htm).1 hc)
  refine ⟨t, e, l, ?_⟩
  intro gid hg
  obtain ⟨hgs, hsz⟩ := hc gid hg
  refine ⟨hgs, fun i => ?_⟩
  obtain ⟨k, hk, rfl⟩ := List.getElem_of_mem hg
  have key := htm.nodup.idxOf_getElem k hk
  have hks : k < tm.sizes.length := by omega
  have hsi : sm.gids.idxOf tm.gids[k] < sm.sizes.length := by
    rw [hsm.len]; exact List.idxOf_lt_length_of_mem hgs
  unfold sizeOf? at hsz
  rw [if_pos hgs, if_pos hg, key, List.getElem?_eq_getElem hks] at hsz
  have d1 : sm.sizes.getD (sm.gids.idxOf tm.gids[k]) 0 = tm.sizes[k] := by
    rw [List.getD_eq_getElem?_getD, hsz]; rfl
  have d2 : tm.sizes.getD (tm.gids.idxOf tm.gids[k]) 0 = tm.sizes[k] := by
    rw [key, List.getD_eq_getElem?_getD, List.getElem?_eq_getElem hks]; rfl
  unfold entry
  rw [d1, d2, key]
  by_cases hi : i < tm.sizes[k]
  · rw [if_pos ⟨hg, hi⟩, if_pos ⟨hgs, hi⟩]
    have := v k hk i (by simpa using hi)
    simpa [BlockMap.firstPoint] using this
  · rw [if_neg (by simp [hi]), if_neg (by simp [hi])]

theorem copyColumns_ok {sm tm : BlockMap} (hsm : sm.WF) (htm : tm.WF) (hc : Covers sm tm)
    (ss ts : List (List α)) (hl : ss.length = ts.length)
    (hss : ∀ c ∈ ss, c.length = sm.numPoints) (hts : ∀ c ∈ ts, c.length = tm.numPoints) :
    ∃ ts', copyColumns sm tm ss ts = .ok ts' ∧ ts'.length = ts.length ∧
      (∀ c ∈ ts', c.length = tm.numPoints) ∧
      ∀ (c : Nat) (sv tv : List α), ss[c]? = some sv → ts'[c]? = some tv → Agrees sm sv tm tv := by
  induction ss generalizing ts with
  | nil =>
    cases ts with
    | nil => exact ⟨[], rfl, rfl, by simp, by simp⟩
    | cons => simp at hl
  | cons s ss ih =>
    cases ts with
    | nil => simp at hl
    | cons t ts =>
      simp only [List.length_cons, Nat.add_right_cancel_iff] at hl
      obtain ⟨t', e1, l1, a1⟩ := copyColumn_ok hsm htm hc (hss s (by simp)) (hts t (by simp))
      obtain ⟨ts', e2, l2, w2, a2⟩ := ih ts hl (fun c h => hss c (by simp [h]))
        (fun c h => hts c (by simp [h]))
      refine ⟨t' :: ts', by simp only [copyColumns, e1, e2], by simp [l2], ?_, ?_⟩
      · intro c hcm
        rcases List.mem_cons.1 hcm with rfl | hcm
        · rw [l1]; exact hts t (by simp)
        · exact w2 c hcm
      · intro c sv tv h1 h2
        cases c with
        | zero =>
          simp only [List.getElem?_cons_zero, Option.some.injEq] at h1 h2
          subst h1; subst h2; exact a1
        | succ c =>
          simp only [List.getElem?_cons_succ] at h1 h2
          exact a2 c sv tv h1 h2

theorem copyColumns_bad {sm tm : BlockMap} (hsm : sm.WF) (htm : tm.WF) (hc : ¬ Covers sm tm)
    (ss ts : List (List α)) (hl : ss.length = ts.length) (hne : ts ≠ [])
    (hss : ∀ c ∈ ss, c.length = sm.numPoints) (hts : ∀ c ∈ ts, c.length = tm.numPoints) :
    copyColumns sm tm ss ts = .fail .rangeError := by
  cases ts with
  | nil => exact absurd rfl hne
  | cons t ts =>
    cases ss with
    | nil => simp at hl
    | cons s ss =>
      have hlen := htm.len
      have := copyElements_bad sm tm s hsm (hss s (by simp)) 0 tm.gids t (by omega)
        (hts t (by simp)) (fun h => hc ((covers_iff htm).2 h))
      simp only [copyColumns, this]

theorem copyMultiVec_ok_iff (s t : MultiVec α) (hs : s.WF) (ht : t.WF) :
    (∃ t', copyMultiVec s t = .ok t') ↔
      s.cols.length = t.cols.length ∧ (t.cols ≠ [] → Covers s.map t.map) := by
  constructor
  · rintro ⟨t', h⟩
    unfold copyMultiVec at h
    split_ifs at h with hl
    have hl : s.cols.length = t.cols.length := by simpa using hl
    refine ⟨hl, fun hne => ?_⟩
    by_contra hc
    rw [copyColumns_bad hs.1 ht.1 hc _ _ hl hne hs.2 ht.2] at h
    cases h
  · rintro ⟨hl, hc⟩
    unfold copyMultiVec
    rw [if_neg (by simpa using hl)]
    by_cases hne : t.cols = []
    · have : s.cols = [] := by rw [hne] at hl; simpa using hl
      rw [hne, this]
      exact ⟨_, rfl⟩
    · obtain ⟨cs, e, -⟩ := copyColumns_ok hs.1 ht.1 (hc hne) _ _ hl hs.2 ht.2
      rw [e]; exact ⟨_, rfl⟩

theorem copyMultiVec_fail (s t : MultiVec α) (hs : s.WF) (ht : t.WF)
    (h : ¬ ∃ t', copyMultiVec s t = .ok t') :
    copyMultiVec s t = .fail .runtimeError ∨ copyMultiVec s t = .fail .rangeError := by
  rw [copyMultiVec_ok_iff s t hs ht] at h
  unfold copyMultiVec
  by_cases hl : s.cols.length = t.cols.length
  · right
    rw [if_neg (by simpa using hl)]
    have : t.cols ≠ [] ∧ ¬ Covers s.map t.map := by
      by_contra hh
      exact h ⟨hl, fun hne => by by_contra hc; exact hh ⟨hne, hc⟩⟩
    rw [copyColumns_bad hs.1 ht.1 this.2 _ _ hl this.1 hs.2 ht.2]
  · left; rw [if_pos hl]

theorem copyMultiVec_spec (s t t' : MultiVec α) (hs : s.WF) (ht : t.WF)
    (h : copyMultiVec s t = .ok t') :
    t'.map = t.map ∧ t'.WF ∧ s.cols.length = t'.cols.length ∧ t'.cols.length = t.cols.length ∧
      ∀ (c : Nat) (sv tv : List α), s.cols[c]? = some sv → t'.cols[c]? = some tv →
        Agrees s.map sv t.map tv := by
  obtain ⟨hl, hc⟩ := (copyMultiVec_ok_iff s t hs ht).1 ⟨t', h⟩
  unfold copyMultiVec at h
  rw [if_neg (by simpa using hl)] at h
  by_cases hne : t.cols = []
  · have hsn : s.cols = [] := by rw [hne] at hl; simpa using hl
    rw [hne, hsn] at h
    cases h
    exact ⟨rfl, ⟨ht.1, by simp⟩, by simp [hsn], by simp [hne], by simp⟩
  · obtain ⟨cs, e, l, w, a⟩ := copyColumns_ok hs.1 ht.1 (hc hne) _ _ hl hs.2 ht.2
    rw [e] at h
    cases h
    exact ⟨rfl, ⟨ht.1, w⟩, by simp only; omega, l, a⟩

theorem copySlots_spec (ss ts ts' : List (Option (MultiVec α))) (h : copySlots ss ts = .ok ts') :
    ∀ (k : Nat) (tv : MultiVec α), (ts[k]?).join = some tv → ∃ sv tv', (ss[k]?).join = some sv ∧
      (ts'[k]?).join = some tv' ∧ copyMultiVec sv tv = .ok tv' := by
  induction ts generalizing ss ts' with
  | nil => intro k tv h; simp at h
  | cons t ts ih =>
    cases ss with
    | nil => simp [copySlots] at h
    | cons s ss =>
      simp only [copySlots] at h
      split at h <;> try cases h
      rename_i t1 h1
      split at h <;> try cases h
      rename_i ts1 h2
      intro k tv hk
      cases k with
      | zero =>
        simp only [List.getElem?_cons_zero, Option.join_some] at hk ⊢
        subst hk
        unfold copySlot at h1
        cases s with
        | none => simp at h1
        | some sv =>
          simp only at h1
          split at h1 <;> try cases h1
          rename_i v hv
          exact ⟨sv, v, rfl, rfl, hv⟩
      | succ k =>
        simp only [List.getElem?_cons_succ] at hk ⊢
        exact ih ss ts1 h2 k tv hk

theorem copyState_spec {pts : List (Field.Length × List Nat)} {bonds : List Nat} {s t t' : VState α}
    (h : copyState s t = .ok t') (hs : s.WF) (ht : t.WF) {f : Nat} {m : BlockMap} {v : List α}
    (hf : t.column pts bonds f = some (m, v)) :
    ∃ ms vs v', s.column pts bonds f = some (ms, vs) ∧ t'.column pts bonds f = some (m, v') ∧
      Agrees ms vs m v' := by
  unfold copyState at h
  split at h <;> try cases h
  rename_i ps hps
  split at h <;> try cases h
  rename_i b hb
  have fin : ∀ (c : Nat) (sv tv tv' : MultiVec α), sv.WF → tv.WF → copyMultiVec sv tv = .ok tv' →
      (tv.cols[c]?).map (fun v => (tv.map, v)) = some (m, v) →
      ∃ ms vs v', (sv.cols[c]?).map (fun v => (sv.map, v)) = some (ms, vs) ∧
        (tv'.cols[c]?).map (fun v => (tv'.map, v)) = some (m, v') ∧ Agrees ms vs m v' := by
    intro c sv tv tv' hsv htv hc hm
    obtain ⟨e1, -, e2, e3, a⟩ := copyMultiVec_spec sv tv tv' hsv htv hc
    cases hv : tv.cols[c]? with
    | none => rw [hv] at hm; cases hm
    | some v0 =>
      rw [hv] at hm
      cases hm
      have hlt := (List.getElem?_eq_some_iff.1 hv).1
      have l1 : c < sv.cols.length := by omega
      have l2 : c < tv'.cols.length := by omega
      refine ⟨_, _, _, by rw [List.getElem?_eq_getElem l1]; rfl,
        by rw [List.getElem?_eq_getElem l2, e1]; rfl, ?_⟩
      exact a c _ _ (List.getElem?_eq_getElem l1) (List.getElem?_eq_getElem l2)
  unfold VState.column at hf ⊢
  cases hp : pointColumn pts f with
  | some p =>
    obtain ⟨slot, c⟩ := p
    simp only [hp] at hf ⊢
    cases htv : (t.pointData[slot]?).join with
    | none => rw [htv] at hf; cases hf
    | some tv =>
      rw [htv] at hf
      simp only [Option.bind_some] at hf
      obtain ⟨sv, tv', h1, h2, h3⟩ := copySlots_spec _ _ _ hps slot tv htv
      rw [h1, h2]
      simp only [Option.bind_some]
      refine fin c sv tv tv' (hs.1 sv ?_) (ht.1 tv ?_) h3 hf
      · rw [Option.join_eq_some_iff] at h1; exact List.mem_of_getElem? h1
      · rw [Option.join_eq_some_iff] at htv; exact List.mem_of_getElem? htv
  | none =>
    simp only [hp] at hf ⊢
    cases hc : columnOf bonds f with
    | none => simp only [hc] at hf; cases hf
    | some c =>
      simp only [hc] at hf ⊢
      cases htv : t.bondData with
      | none => rw [htv] at hf; cases hf
      | some tv =>
        rw [htv] at hf hb
        simp only [Option.bind_some] at hf
        unfold copySlot at hb
        cases hsv : s.bondData with
        | none => rw [hsv] at hb; simp at hb
        | some sv =>
          rw [hsv] at hb
          simp only at hb
          split at hb <;> try cases hb
          rename_i tv' h3
          simp only [Option.bind_some]
          exact fin c sv tv tv' (hs.2 sv hsv) (ht.2 tv htv) h3 hf

theorem copyOptState_spec {s t t' : Option (VState α)} (h : copyOptState s t = .ok t') :
    (t = none ∧ t' = none) ∨ ∃ sv tv tv', s = some sv ∧ t = some tv ∧ t' = some tv' ∧
      copyState sv tv = .ok tv' := by
  unfold copyOptState at h
  split at h
  · split at h <;> try cases h
    rename_i tv sv _ v hv
    exact Or.inr ⟨sv, tv, v, rfl, rfl, rfl, hv⟩
  · cases h; exact Or.inl ⟨rfl, rfl⟩
  · cases h

end Verif.Redist
