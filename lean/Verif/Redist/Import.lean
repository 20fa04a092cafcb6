import Verif.Redist.Lemmas

/-! Helper lemmas: import of distributed multivectors, scattering to ghosts, rebalancing. -/

namespace Verif.Redist

open Verif

variable {α : Type}

theorem flatten_block (blocks : List (List α)) (l i : Nat) (hl : l < blocks.length)
    (hi : i < blocks[l].length) :
    blocks.flatten[((blocks.map List.length).take l).sum + i]? = blocks[l][i]? := by
  induction blocks generalizing l with
  | nil => simp at hl
  | cons b bs ih =>
    cases l with
    | zero =>
      simp only [List.getElem_cons_zero] at hi ⊢
      simp only [List.take_zero, List.sum_nil, Nat.zero_add, List.flatten_cons]
      rw [List.getElem?_append_left hi]
    | succ l =>
      simp only [List.getElem_cons_succ, List.length_cons] at hi hl ⊢
      simp only [List.map_cons, List.take_succ_cons, List.sum_cons, List.flatten_cons]
      rw [List.getElem?_append_right (by omega)]
      rw [show b.length + ((bs.map List.length).take l).sum + i - b.length =
        ((bs.map List.length).take l).sum + i by omega]
      exact ih l (by omega) hi

theorem importElement_spec (srcs : DistMV α) (q c gid : Nat) (s : MultiVec α) (v : List α)
    (hq : srcs[q]? = some s) (hs : s.WF) (hg : gid ∈ s.map.gids) (hc : s.cols[c]? = some v) :
    ∃ b, importElement srcs q c gid = some b ∧ some b.length = sizeOf? s.map gid ∧
      ∀ i, b[i]? = entry s.map v gid i := by
  have hsi : s.map.gids.idxOf gid < s.map.sizes.length := by
    rw [hs.1.len]; exact List.idxOf_lt_length_of_mem hg
  have hv := hs.2 v (List.mem_of_getElem? hc)
  have hb := block_le s.map _ hsi
  refine ⟨(v.drop (s.map.firstPoint (s.map.gids.idxOf gid))).take s.map.sizes[s.map.gids.idxOf gid],
    ?_, ?_, ?_⟩
  · unfold importElement BlockMap.lid
    simp only [hq, hg, if_true, hc, List.getElem?_eq_getElem hsi, Option.map_some]
  · unfold sizeOf?
    rw [if_pos hg, List.getElem?_eq_getElem hsi]
    congr 1
    rw [List.length_take, List.length_drop]
    omega
  · intro i
    unfold entry
    rw [List.getD_eq_getElem?_getD, List.getElem?_eq_getElem hsi, Option.getD_some,
      List.getElem?_take]
    by_cases hi : i < s.map.sizes[s.map.gids.idxOf gid]
    · rw [if_pos hi, if_pos ⟨hg, hi⟩, List.getElem?_drop]
      rfl
    · rw [if_neg hi, if_neg (by simp [hi])]

/-- Source of one imported element. -/
def HasSource (srcs : DistMV α) (tm : BlockMap) (q c gid : Nat) (s : MultiVec α) (v : List α) :
    Prop :=
  srcs[q]? = some s ∧ s.WF ∧ gid ∈ s.map.gids ∧ s.cols[c]? = some v ∧
    sizeOf? s.map gid = sizeOf? tm gid

theorem importColumn_spec (pick : Nat → Nat) (srcs : DistMV α) (c : Nat) (tm : BlockMap)
    (htm : tm.WF) (old : List α)
    (H : ∀ gid ∈ tm.gids, ∃ s v, HasSource srcs tm (pick gid) c gid s v) :
    (importColumn pick srcs c tm old).length = tm.numPoints ∧
    ∀ gid ∈ tm.gids, ∀ s v, HasSource srcs tm (pick gid) c gid s v → ∀ i,
      entry tm (importColumn pick srcs c tm old) gid i = entry s.map v gid i := by
  set blocks := tm.gids.mapIdx fun l gid =>
    match importElement srcs (pick gid) c gid with
    | some b => b
    | none => (old.drop (tm.firstPoint l)).take (tm.sizes.getD l 0) with hbl
  have hlen := htm.len
  have hblen : blocks.length = tm.gids.length := by simp [hbl]
  have hblock : ∀ l (hl : l < tm.gids.length) s v, HasSource srcs tm (pick tm.gids[l]) c tm.gids[l] s v →
      (blocks[l]'(by omega)).length = tm.sizes[l]'(by omega) ∧
      ∀ i, (blocks[l]'(by omega))[i]? = entry s.map v tm.gids[l] i := by
    intro l hl s v ⟨h1, h2, h3, h4, h5⟩
    obtain ⟨b, e, hbl', hb⟩ := importElement_spec srcs _ c _ s v h1 h2 h3 h4
    have : blocks[l]'(by omega) = b := by
      simp only [hbl, List.getElem_mapIdx, e]
    rw [this]
    refine ⟨?_, hb⟩
    rw [h5] at hbl'
    unfold sizeOf? at hbl'
    rw [if_pos (List.getElem_mem hl), htm.nodup.idxOf_getElem l hl,
      List.getElem?_eq_getElem (by omega)] at hbl'
    exact Option.some.inj hbl'
  have hsizes : blocks.map List.length = tm.sizes := by
    apply List.ext_getElem
    · simp; omega
    · intro l h1 h2
      obtain ⟨s, v, hs⟩ := H _ (List.getElem_mem (show l < tm.gids.length by omega))
      rw [List.getElem_map]
      exact (hblock l (by omega) s v hs).1
  have hflat : importColumn pick srcs c tm old = blocks.flatten := rfl
  constructor
  · rw [hflat, List.length_flatten, hsizes]; rfl
  · intro gid hg s v hs i
    obtain ⟨l, hl, rfl⟩ := List.getElem_of_mem hg
    have key := htm.nodup.idxOf_getElem l hl
    obtain ⟨b1, b2⟩ := hblock l hl s v hs
    have hsl : l < tm.sizes.length := by omega
    unfold entry
    rw [key, List.getD_eq_getElem?_getD, List.getElem?_eq_getElem hsl, Option.getD_some]
    by_cases hi : i < tm.sizes[l]
    · rw [if_pos ⟨hg, hi⟩, hflat]
      have := flatten_block blocks l i (by omega) (by omega)
      rw [hsizes] at this
      rw [this, b2]
      unfold entry; rfl
    · rw [if_neg (by simp [hi])]
      have : (blocks[l]'(by omega))[i]? = none := by
        rw [List.getElem?_eq_none_iff, b1]; omega
      rw [b2] at this
      unfold entry at this
      exact this.symm

/-! ### Constant element sizes -/

theorem const_size (g : List Nat) (k gid : Nat) :
    sizeOf? (BlockMap.const g k) gid = if gid ∈ g then some k else none := by
  unfold sizeOf? BlockMap.const
  simp only
  split_ifs with h
  · have := List.idxOf_lt_length_of_mem h
    rw [List.getElem?_map, List.getElem?_eq_getElem this]; rfl
  · rfl

theorem const_first (g : List Nat) (k l : Nat) (hl : l ≤ g.length) :
    ((BlockMap.const g k).sizes.take l).sum = l * k := by
  unfold BlockMap.const
  simp only [List.map_const', List.take_replicate, List.sum_replicate, nsmul_eq_mul, Nat.cast_id]
  rw [Nat.min_eq_left hl]

theorem const_entry (g : List Nat) (k : Nat) (v : List α) (gid i : Nat) (hg : gid ∈ g) (hi : i < k) :
    entry (BlockMap.const g k) v gid i = v[g.idxOf gid * k + i]? := by
  have hlt := List.idxOf_lt_length_of_mem hg
  have e := const_first g k (g.idxOf gid) hlt.le
  have hc : gid ∈ (BlockMap.const g k).gids ∧
      i < (BlockMap.const g k).sizes.getD ((BlockMap.const g k).gids.idxOf gid) 0 := by
    refine ⟨hg, ?_⟩
    simp only [BlockMap.const]
    rw [List.getD_eq_getElem?_getD, List.getElem?_map, List.getElem?_eq_getElem hlt]
    simpa using hi
  rw [entry, if_pos hc]
  show v[((BlockMap.const g k).sizes.take (g.idxOf gid)).sum + i]? = _
  rw [e]

theorem const_numPoints (g : List Nat) (k : Nat) : (BlockMap.const g k).numPoints = g.length * k := by
  simp [BlockMap.numPoints, BlockMap.const]

theorem const_WF {g : List Nat} (h : g.Nodup) (k : Nat) : (BlockMap.const g k).WF :=
  ⟨by simp [BlockMap.const], h⟩

theorem gatherOwned_spec (es : Nat) (og : List Nat) (src : List α)
    (hsrc : src.length = og.length * es) (l : Nat) (gids : List Nat) (tgt : List α)
    (hsub : ∀ g ∈ gids, g ∈ og) (htgt : (l + gids.length) * es ≤ tgt.length) :
    ∃ t, gatherOwned es (BlockMap.const og es) src l gids tgt = .ok t ∧ t.length = tgt.length ∧
      (∀ j, j < l * es → t[j]? = tgt[j]?) ∧
      ∀ k (hk : k < gids.length) i, i < es →
        t[(l + k) * es + i]? = src[og.idxOf gids[k] * es + i]? := by
  induction gids generalizing l tgt with
  | nil => exact ⟨tgt, rfl, rfl, fun _ _ => rfl, fun k hk => by simp at hk⟩
  | cons gid gids ih =>
    have hm : gid ∈ og := hsub gid (by simp)
    have hlt := List.idxOf_lt_length_of_mem hm
    have h1 : og.idxOf gid * es + es ≤ src.length := by
      rw [hsrc, ← Nat.succ_mul]; exact Nat.mul_le_mul_right _ hlt
    have h2 : l * es + es ≤ tgt.length := by
      refine le_trans ?_ htgt
      rw [← Nat.succ_mul]; apply Nat.mul_le_mul_right; simp
    obtain ⟨t1, e1, l1, v1⟩ := copyBlock_spec src (og.idxOf gid * es) (l * es) es tgt h1 h2
    obtain ⟨t, e, lt, v0, v⟩ := ih (l + 1) t1 (fun g hg => hsub g (by simp [hg])) (by
      rw [l1]; refine le_trans (le_of_eq ?_) htgt; simp only [List.length_cons]; ring)
    refine ⟨t, ?_, by omega, ?_, ?_⟩
    · have hlid : (BlockMap.const og es).lid gid = some (og.idxOf gid) := if_pos hm
      simp only [gatherOwned, hlid, e1, e]
    · intro j hj
      have : (l + 1) * es = l * es + es := by ring
      rw [v0 j (by omega), v1, if_neg (by omega)]
    · intro k hk i hi
      cases k with
      | zero =>
        simp only [Nat.add_zero, List.getElem_cons_zero]
        have : (l + 1) * es = l * es + es := by ring
        rw [v0 _ (by omega), v1, if_pos (by omega)]
        congr 1; omega
      | succ k =>
        simp only [List.getElem_cons_succ]
        rw [show l + (k + 1) = l + 1 + k by omega]
        exact v k (by simpa using hk) i hi

theorem allOk_iff {β γ : Type} (g : β → Outcome γ) (l : List β) (r : List γ) :
    allOk g l = .ok r ↔ List.Forall₂ (fun x y => g x = .ok y) l r := by
  induction l generalizing r with
  | nil =>
    simp only [allOk, Outcome.ok.injEq]
    constructor
    · rintro rfl; exact List.Forall₂.nil
    · intro h; cases h; rfl
  | cons x xs ih =>
    simp only [allOk]
    constructor
    · intro h
      split at h <;> try cases h
      rename_i y hy
      split at h <;> try cases h
      rename_i ys hys
      exact List.Forall₂.cons hy ((ih ys).1 hys)
    · intro h
      cases h with
      | cons h1 h2 => rw [h1, (ih _).2 h2]

end Verif.Redist
