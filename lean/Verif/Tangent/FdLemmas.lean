import Verif.Tangent.Lemmas
import Mathlib.Tactic.Linarith
import Mathlib.Tactic.FieldSimp
import Mathlib.Algebra.BigOperators.Group.List.Basic

/-! Lemmas on the finite-difference tangent. -/

noncomputable section

namespace Verif.Tangent

open Verif Verif.Neigh Verif.Mech
open scoped Classical

/-- The array of an evaluation (zero if there is none; used only for evaluations that succeed). -/
def out : Outcome (Nat → ℝ) → Nat → ℝ
  | .ok f => f
  | _ => fun _ => 0

/-! ### The scratch matrix -/

theorem write_ok {S S' : Scratch} {r c : Nat} {x : ℝ} (h : S.write r c x = .ok S') : S'.dim = S.dim ∧
    ∀ r' c', S'.val r' c' = if r' = r ∧ c' = c then some x else S.val r' c' := by
  unfold Scratch.write at h
  split at h
  · cases h
    refine ⟨rfl, fun r' c' => ?_⟩
    by_cases h1 : r' = r
    · subst h1
      by_cases h2 : c' = c
      · subst h2; simp
      · simp [h2]
    · simp [h1]
  · cases h

/-- A loop each pass of which writes the entries `cells a` of one and the same matrix `g`. -/
theorem fold_cells {α : Type} {f : Scratch → α → Outcome Scratch} (g : Nat → Nat → ℝ)
    (cells : α → Nat → Nat → Prop)
    (hstep : ∀ S a S', f S a = .ok S' → S'.dim = S.dim ∧
      ∀ r c, S'.val r c = if cells a r c then some (g r c) else S.val r c) :
    ∀ (l : List α) (S S' : Scratch), l.foldlM f S = .ok S' → S'.dim = S.dim ∧
      ∀ r c, S'.val r c = if ∃ a ∈ l, cells a r c then some (g r c) else S.val r c := by
  intro l
  induction l with
  | nil =>
    intro S S' h
    cases h
    exact ⟨rfl, by simp⟩
  | cons a l ih =>
    intro S S' h
    obtain ⟨S1, h1, h2⟩ := BC.foldlM_cons_ok.1 h
    obtain ⟨d1, v1⟩ := hstep _ _ _ h1
    obtain ⟨d2, v2⟩ := ih _ _ h2
    refine ⟨d2.trans d1, fun r c => ?_⟩
    rw [v2, v1]
    by_cases hl : ∃ a ∈ l, cells a r c
    · have : ∃ b ∈ a :: l, cells b r c := by
        obtain ⟨b, hb, hc⟩ := hl
        exact ⟨b, List.mem_cons_of_mem _ hb, hc⟩
      rw [if_pos hl, if_pos this]
    · rw [if_neg hl]
      by_cases ha : cells a r c
      · rw [if_pos ha, if_pos ⟨a, List.mem_cons_self .., ha⟩]
      · rw [if_neg ha, if_neg]
        rintro ⟨b, hb, hc⟩
        rcases List.mem_cons.1 hb with rfl | hb
        · exact ha hc
        · exact hl ⟨b, hb, hc⟩

theorem fold_defined {α : Type} {f : Scratch → α → Outcome Scratch} (d : Nat) :
    ∀ (l : List α), (∀ S, ∀ a ∈ l, S.dim = d → ∃ S', f S a = .ok S' ∧ S'.dim = d) → ∀ S, S.dim = d →
    ∃ S', l.foldlM f S = .ok S' ∧ S'.dim = d := by
  intro l
  induction l with
  | nil => intro _ S hS; exact ⟨S, rfl, hS⟩
  | cons a l ih =>
    intro h S hS
    obtain ⟨S1, h1, d1⟩ := h S a (List.mem_cons_self ..) hS
    obtain ⟨S2, h2, d2⟩ := ih (fun S b hb => h S b (List.mem_cons_of_mem _ hb)) S1 d1
    exact ⟨S2, BC.foldlM_cons_ok.2 ⟨S1, h1, h2⟩, d2⟩

theorem mem_visitOrder {n k : Nat} (hn : 0 < n) : k ∈ visitOrder n ↔ k < n := by
  unfold visitOrder
  simp only [List.mem_append, List.mem_map, List.mem_range, List.mem_singleton]
  constructor
  · rintro (⟨j, hj, rfl⟩ | rfl) <;> omega
  · intro h
    by_cases hk : k = 0
    · exact .inr hk
    · exact .inl ⟨k - 1, by omega, by omega⟩

theorem row_cells {D n r : Nat} (hn : 0 < n) :
    (∃ id ∈ visitOrder n, ∃ d ∈ List.range D, r = D * id + d) ↔ r < D * n := by
  constructor
  · rintro ⟨id, hid, d, hd, rfl⟩
    rw [mem_visitOrder hn] at hid
    rw [List.mem_range] at hd
    calc D * id + d < D * id + D := by omega
      _ = D * (id + 1) := by ring
      _ ≤ D * n := Nat.mul_le_mul_left _ hid
  · intro h
    have hD : 0 < D := by
      rcases Nat.eq_zero_or_pos D with h0 | h0
      · subst h0; simp at h
      · exact h0
    exact ⟨r / D, (mem_visitOrder hn).2 (Nat.div_lt_of_lt_mul h), r % D,
      List.mem_range.2 (Nat.mod_lt _ hD), (Nat.div_add_mod r D).symm⟩

/-- The difference quotient of two arrays. -/
def quot (P : Settings) (f1 f0 : Nat → ℝ) (r : Nat) : ℝ := (f1 r - f0 r) / P.epsilon * 0.5

theorem writeColumn_ok {P : Settings} {n col : Nat} {f1 f0 : Nat → ℝ} {S S' : Scratch} (hn : 0 < n)
    (h : writeColumn P n P.numDof P.numDof (P.numDof * n) 0 col f1 f0 S = .ok S') :
    S'.dim = S.dim ∧ ∀ r c, S'.val r c =
      if c = col ∧ r < P.numDof * n then some (quot P f1 f0 r) else S.val r c := by
  unfold writeColumn at h
  have inner : ∀ (S : Scratch) (id : Nat) (S' : Scratch), (List.range P.numDof).foldlM (fun S d =>
      if P.numDof * id + d < P.numDof * n then
        S.write (P.numDof * id + 0 + d) col
          ((f1 (P.numDof * id + d) - f0 (P.numDof * id + d)) / P.epsilon * 0.5)
      else .ub) S = .ok S' → S'.dim = S.dim ∧ ∀ r c, S'.val r c =
        if (c = col ∧ ∃ d ∈ List.range P.numDof, r = P.numDof * id + d) then some (quot P f1 f0 r)
        else S.val r c := by
    intro S id S' h
    obtain ⟨h1, h2⟩ := fold_cells (fun r _ => quot P f1 f0 r)
      (fun d r c => r = P.numDof * id + d ∧ c = col) (by
        intro S d S' hs
        split at hs
        · obtain ⟨w1, w2⟩ := write_ok hs
          refine ⟨w1, fun r c => ?_⟩
          rw [w2, Nat.add_zero]
          by_cases e : r = P.numDof * id + d ∧ c = col
          · rw [if_pos e, if_pos e, quot, e.1]
          · rw [if_neg e, if_neg e]
        · cases hs) _ _ _ h
    refine ⟨h1, fun r c => ?_⟩
    rw [h2]
    have : (∃ d ∈ List.range P.numDof, r = P.numDof * id + d ∧ c = col) ↔
        (c = col ∧ ∃ d ∈ List.range P.numDof, r = P.numDof * id + d) := by
      constructor
      · rintro ⟨d, hd, e1, e2⟩; exact ⟨e2, d, hd, e1⟩
      · rintro ⟨e2, d, hd, e1⟩; exact ⟨d, hd, e1, e2⟩
    by_cases hc : (c = col ∧ ∃ d ∈ List.range P.numDof, r = P.numDof * id + d)
    · rw [if_pos hc, if_pos (this.2 hc)]
    · rw [if_neg hc, if_neg (fun h => hc (this.1 h))]
  obtain ⟨h1, h2⟩ := fold_cells (fun r _ => quot P f1 f0 r)
    (fun id r c => c = col ∧ ∃ d ∈ List.range P.numDof, r = P.numDof * id + d)
    (fun S a S' hs => ⟨(inner S a S' hs).1, fun r c => by rw [(inner S a S' hs).2 r c]; congr⟩) _ _ _ h
  refine ⟨h1, fun r c => ?_⟩
  rw [h2]
  have : (∃ id ∈ visitOrder n, c = col ∧ ∃ d ∈ List.range P.numDof, r = P.numDof * id + d) ↔
      (c = col ∧ r < P.numDof * n) := by
    rw [← row_cells hn]
    constructor
    · rintro ⟨id, hid, e, hd⟩; exact ⟨e, id, hid, hd⟩
    · rintro ⟨e, id, hid, hd⟩; exact ⟨id, hid, e, hd⟩
  by_cases hc : (c = col ∧ r < P.numDof * n)
  · rw [if_pos hc, if_pos (this.2 hc)]
  · rw [if_neg hc, if_neg (fun h => hc (this.1 h))]

theorem writeColumn_defined {P : Settings} {n col : Nat} {f1 f0 : Nat → ℝ} {S : Scratch} (hn : 0 < n)
    (hd : P.numDof * n ≤ S.dim) (hc : col < S.dim) : ∃ S',
    writeColumn P n P.numDof P.numDof (P.numDof * n) 0 col f1 f0 S = .ok S' ∧ S'.dim = S.dim := by
  unfold writeColumn
  refine fold_defined S.dim _ ?_ S rfl
  intro S1 id hid h1
  refine fold_defined S.dim _ ?_ S1 h1
  intro S2 d hdd h2
  have hlt : P.numDof * id + d < P.numDof * n := (row_cells hn).1 ⟨id, hid, d, hdd, rfl⟩
  rw [if_pos hlt]
  refine ⟨_, if_pos ⟨?_, ?_⟩, h2⟩
  · rw [h2, Nat.add_zero]; exact Nat.lt_of_lt_of_le hlt hd
  · rw [h2]; exact hc

/-! ### Adding to the tangent -/

theorem add_ok {A A' : Sparse} {r c : Nat} {x : ℝ} (h : A.add r c x = .ok A') : A'.pattern = A.pattern ∧
    ∀ R C, A'.val R C = A.val R C + if R = r ∧ C = c then x else 0 := by
  unfold Sparse.add at h
  split at h
  · cases h
    refine ⟨rfl, fun R C => ?_⟩
    by_cases h1 : R = r
    · subst h1
      by_cases h2 : C = c
      · subst h2; simp
      · simp [h2]
    · simp [h1]
  · cases h

theorem addRow_ok {s : Nat → ℝ} {r : Nat} : ∀ {idx : List (Nat × Nat)} {A A' : Sparse},
    addRow s r idx A = .ok A' → A'.pattern = A.pattern ∧ ∀ R C, A'.val R C = A.val R C +
      if R = r then (idx.map fun x => if x.1 = C then s x.2 else 0).sum else 0
  | [], A, A', h => by
    cases h
    exact ⟨rfl, by simp⟩
  | x :: idx, A, A', h => by
    obtain ⟨A1, h1, h2⟩ := BC.foldlM_cons_ok.1 h
    obtain ⟨p1, v1⟩ := add_ok h1
    obtain ⟨p2, v2⟩ := addRow_ok (idx := idx) h2
    refine ⟨p2.trans p1, fun R C => ?_⟩
    rw [v2, v1, List.map_cons, List.sum_cons]
    by_cases hR : R = r
    · by_cases hC : C = x.1
      · simp [hR, hC]; ring
      · have hC' : ¬ x.1 = C := fun h => hC h.symm
        simp [hR, hC, hC']
    · simp [hR]

theorem addRow_defined {s : Nat → ℝ} {r : Nat} : ∀ (idx : List (Nat × Nat)) (A : Sparse),
    (∀ x ∈ idx, x.1 ∈ A.pattern r) → ∃ A', addRow s r idx A = .ok A'
  | [], A, _ => ⟨A, rfl⟩
  | x :: idx, A, h => by
    have h1 : A.add r x.1 (s x.2) = .ok _ := if_pos (h x (List.mem_cons_self ..))
    obtain ⟨A2, h2⟩ := addRow_defined (s := s) idx _
      (fun y hy => by rw [(add_ok h1).1]; exact h y (List.mem_cons_of_mem _ hy))
    exact ⟨A2, BC.foldlM_cons_ok.2 ⟨_, h1, h2⟩⟩

/-- In a list without repetition the sum picks the entry at the position of the index. -/
theorem sum_zipIdx {s : Nat → ℝ} {C : Nat} : ∀ {idx : List Nat} (k : Nat), idx.Nodup →
    ((idx.zipIdx k).map fun x => if x.1 = C then s x.2 else 0).sum =
      if C ∈ idx then s (k + idx.idxOf C) else 0
  | [], _, _ => by simp
  | a :: idx, k, h => by
    rw [List.nodup_cons] at h
    rw [List.zipIdx_cons, List.map_cons, List.sum_cons, sum_zipIdx (k + 1) h.2]
    by_cases e : a = C
    · subst e
      simp [h.1]
    · rw [if_neg e, zero_add, List.idxOf_cons_ne _ e]
      by_cases hC : C ∈ idx
      · rw [if_pos hC, if_pos (List.mem_cons_of_mem _ hC)]
        congr 1
        omega
      · rw [if_neg hC, if_neg]
        intro h'
        rcases List.mem_cons.1 h' with rfl | h'
        · exact e rfl
        · exact hC h'

/-- What `addValues` adds. -/
theorem addValues_ok {rows : Nat → Prop} {idx : List Nat} {L : Nat → Nat → ℝ} {A A' : Sparse}
    (hn : idx.Nodup) (h : addValues rows idx L A = .ok A') : A'.pattern = A.pattern ∧
    ∀ R C, A'.val R C = A.val R C + if R ∈ idx ∧ C ∈ idx then L (idx.idxOf R) (idx.idxOf C) else 0 := by
  unfold addValues at h
  split at h
  · cases h
  · have gen : ∀ (l : List (Nat × Nat)) (A A' : Sparse),
        l.foldlM (fun A r => addRow (L r.2) r.1 idx.zipIdx A) A = .ok A' → A'.pattern = A.pattern ∧
        ∀ R C, A'.val R C = A.val R C + (l.map fun x => if x.1 = R then
          (if C ∈ idx then L x.2 (idx.idxOf C) else 0) else 0).sum := by
      intro l
      induction l with
      | nil => intro A A' h; cases h; exact ⟨rfl, by simp⟩
      | cons x l ih =>
        intro A A' h
        obtain ⟨A1, h1, h2⟩ := BC.foldlM_cons_ok.1 h
        obtain ⟨p1, v1⟩ := addRow_ok h1
        obtain ⟨p2, v2⟩ := ih _ _ h2
        refine ⟨p2.trans p1, fun R C => ?_⟩
        rw [v2, v1, List.map_cons, List.sum_cons, sum_zipIdx 0 hn, Nat.zero_add]
        by_cases e : R = x.1
        · rw [if_pos e, if_pos e.symm]; ring
        · rw [if_neg e, if_neg (fun h => e h.symm)]; ring
    obtain ⟨h1, h2⟩ := gen _ _ _ h
    refine ⟨h1, fun R C => ?_⟩
    rw [h2, sum_zipIdx (s := fun i => if C ∈ idx then L i (idx.idxOf C) else 0) 0 hn, Nat.zero_add]
    by_cases hR : R ∈ idx <;> by_cases hC : C ∈ idx <;> simp [hR, hC]

theorem addValues_defined {rows : Nat → Prop} {idx : List Nat} {L : Nat → Nat → ℝ} {A : Sparse}
    (hc : ∀ c ∈ idx, A.hasColumn rows c) (hp : ∀ r ∈ idx, ∀ c ∈ idx, c ∈ A.pattern r) :
    ∃ A', addValues rows idx L A = .ok A' := by
  unfold addValues
  rw [if_neg (by push Not; exact hc)]
  have gen : ∀ (l : List (Nat × Nat)) (A : Sparse), (∀ x ∈ l, x.1 ∈ idx) →
      (∀ r ∈ idx, ∀ c ∈ idx, c ∈ A.pattern r) →
      ∃ A', l.foldlM (fun A r => addRow (L r.2) r.1 idx.zipIdx A) A = .ok A' := by
    intro l
    induction l with
    | nil => intro A _ _; exact ⟨A, rfl⟩
    | cons x l ih =>
      intro A hx hA
      obtain ⟨A1, h1⟩ := addRow_defined (s := L x.2) (r := x.1) idx.zipIdx A (fun y hy =>
        hA _ (hx x (List.mem_cons_self ..)) _ (List.fst_mem_of_mem_zipIdx hy))
      obtain ⟨A2, h2⟩ := ih A1 (fun y hy => hx y (List.mem_cons_of_mem _ hy))
        (fun r hr c hc => by rw [(addRow_ok h1).1]; exact hA r hr c hc)
      exact ⟨A2, BC.foldlM_cons_ok.2 ⟨_, h1, h2⟩⟩
  exact gen _ _ (fun x hx => List.fst_mem_of_mem_zipIdx hx) hp

/-! ### Indices of a neighborhood -/

theorem dofIds_length (D : Nat) (gids : List Nat) : (dofIds D gids).length = D * gids.length := by
  unfold dofIds
  induction gids with
  | nil => simp
  | cons g gs ih => simp [ih]; ring

theorem dofIds_get {D : Nat} : ∀ {gids : List Nat} {k d : Nat} {g : Nat}, d < D → gids[k]? = some g →
    (dofIds D gids)[D * k + d]? = some (D * g + d)
  | [], k, d, g, _, h => by simp at h
  | g' :: gs, 0, d, g, hd, h => by
    simp at h
    subst h
    unfold dofIds
    rw [List.flatMap_cons, Nat.mul_zero, Nat.zero_add, List.getElem?_append_left (by simpa using hd)]
    simp [hd]
  | g' :: gs, k + 1, d, g, hd, h => by
    have ih := dofIds_get (gids := gs) (k := k) hd (by simpa using h)
    unfold dofIds at ih ⊢
    rw [List.flatMap_cons, List.getElem?_append_right (by simp; nlinarith)]
    rw [← ih]
    congr 1
    simp
    rw [Nat.mul_add]
    omega

theorem dofIds_nodup {D : Nat} {gids : List Nat} (h : gids.Nodup) : (dofIds D gids).Nodup := by
  unfold dofIds
  rw [List.nodup_flatMap]
  refine ⟨fun g _ => ?_, h.imp ?_⟩
  · refine List.Nodup.map ?_ List.nodup_range
    intro a b e
    simpa using e
  · intro a b hab
    show List.Disjoint _ _
    intro x hx hy
    obtain ⟨d, hd, e⟩ := List.mem_map.1 hx
    obtain ⟨d', hd', e'⟩ := List.mem_map.1 hy
    rw [List.mem_range] at hd hd'
    have hD : 0 < D := by omega
    apply hab
    have h1 : x / D = a := by rw [← e, Nat.mul_add_div hD, Nat.div_eq_of_lt hd, Nat.add_zero]
    have h2 : x / D = b := by rw [← e', Nat.mul_add_div hD, Nat.div_eq_of_lt hd', Nat.add_zero]
    omega

/-- The position of an index in a neighborhood. -/
def slot (D : Nat) (gids : List Nat) (r : Nat) : Nat := D * gids.idxOf (r / D) + r % D

theorem idxOf_dofIds {D : Nat} (hD : 0 < D) {gids : List Nat} (hn : gids.Nodup) {r : Nat}
    (hr : r / D ∈ gids) : (dofIds D gids).idxOf r = slot D gids r := by
  have h1 : gids[gids.idxOf (r / D)]? = some (r / D) := List.getElem?_idxOf hr
  have h2 := dofIds_get (D := D) (d := r % D) (Nat.mod_lt _ hD) h1
  rw [Nat.div_add_mod] at h2
  obtain ⟨hlt, e⟩ := List.getElem?_eq_some_iff.1 h2
  have := (dofIds_nodup (D := D) hn).idxOf_getElem _ hlt
  rw [e] at this
  exact this

theorem slot_lt {D : Nat} (hD : 0 < D) {gids : List Nat} {r : Nat} (hr : r / D ∈ gids) :
    slot D gids r < D * gids.length := by
  unfold slot
  have h1 := List.idxOf_lt_length_iff.2 hr
  have h2 := Nat.mod_lt r hD
  calc D * gids.idxOf (r / D) + r % D < D * gids.idxOf (r / D) + D := by omega
    _ = D * (gids.idxOf (r / D) + 1) := by ring
    _ ≤ D * gids.length := Nat.mul_le_mul_left _ h1

theorem slot_div {D : Nat} (hD : 0 < D) (gids : List Nat) (r : Nat) :
    slot D gids r / D = gids.idxOf (r / D) := by
  unfold slot
  rw [Nat.mul_add_div hD, Nat.div_eq_of_lt (Nat.mod_lt r hD), Nat.add_zero]

theorem slot_mod (D : Nat) (gids : List Nat) (r : Nat) : slot D gids r % D = r % D := by
  unfold slot
  rw [Nat.mul_add_mod, Nat.mod_mod]

theorem gather_slot {D : Nat} (hD : 0 < D) {gids : List Nat} {r : Nat} (hr : r / D ∈ gids) (Y : Nat → ℝ) :
    gather D gids Y (slot D gids r) = Y r := by
  unfold gather
  rw [slot_div hD, slot_mod, List.getElem?_idxOf hr]
  simp only
  rw [Nat.div_add_mod]

/-- A change at a point of the neighborhood is a change at its position. -/
theorem gather_bump_in {D : Nat} (hD : 0 < D) {gids : List Nat} (hn : gids.Nodup) {C : Nat}
    (hC : C / D ∈ gids) (Y : Nat → ℝ) (e : ℝ) :
    gather D gids (bump Y C e) = bump (gather D gids Y) (slot D gids C) e := by
  funext k
  unfold bump
  by_cases hk : k = slot D gids C
  · rw [hk, Function.update_self, gather_slot hD hC, Function.update_self, gather_slot hD hC]
  · rw [Function.update_of_ne hk]
    unfold gather
    cases hg : gids[k / D]? with
    | none => rfl
    | some g =>
      simp only
      rw [Function.update_of_ne]
      intro he
      apply hk
      obtain ⟨hlt, hge⟩ := List.getElem?_eq_some_iff.1 hg
      have h1 : C / D = g := by
        rw [← he, Nat.mul_add_div hD, Nat.div_eq_of_lt (Nat.mod_lt k hD), Nat.add_zero]
      have h2 : C % D = k % D := by rw [← he, Nat.mul_add_mod, Nat.mod_mod]
      unfold slot
      have h3 := hn.idxOf_getElem _ hlt
      rw [hge] at h3
      rw [h1, h2, h3, Nat.div_add_mod]

/-- A change elsewhere is no change. -/
theorem gather_bump_out {D : Nat} (hD : 0 < D) {gids : List Nat} {C : Nat} (hC : C / D ∉ gids)
    (Y : Nat → ℝ) (e : ℝ) : gather D gids (bump Y C e) = gather D gids Y := by
  funext k
  unfold gather bump
  cases hg : gids[k / D]? with
  | none => rfl
  | some g =>
    simp only
    rw [Function.update_of_ne]
    intro he
    apply hC
    have h1 : C / D = g := by
      rw [← he, Nat.mul_add_div hD, Nat.div_eq_of_lt (Nat.mod_lt k hD), Nat.add_zero]
    rw [h1]
    exact List.mem_of_getElem? hg

theorem gather_one {gids : List Nat} {k g : Nat} (h : gids[k]? = some g) (Y : Nat → ℝ) :
    gather 1 gids Y k = Y g := by
  unfold gather
  rw [Nat.div_one, h]
  simp [Nat.mod_one]

end Verif.Tangent
