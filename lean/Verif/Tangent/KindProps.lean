import Verif.Tangent.Demo

/-!
# Block-diagonal tangents and coupled unknowns (C90, C91)
-/

noncomputable section

namespace Verif.Tangent

open Verif Verif.Neigh Verif.Mech
open scoped Classical

/-! ### Helper lemmas -/

theorem inverseMap_defined {idx : List Nat} {c : Nat} (h : c ∈ idx) : ∃ i, inverseMap idx c = .ok i := by
  unfold inverseMap
  have : ∃ x, idx.zipIdx.reverse.find? (fun x => x.1 = c) = some x := by
    rw [← Option.isSome_iff_exists, List.find?_isSome]
    obtain ⟨i, hi⟩ := List.mem_iff_getElem?.1 h
    exact ⟨(c, i), List.mem_reverse.2 (List.mem_zipIdx_iff_getElem?.2 hi), by simp⟩
  obtain ⟨x, hx⟩ := this
  rw [hx]
  exact ⟨x.2, rfl⟩

theorem addBlockDiagonalValues_defined {gids all : List Nat} (hn : gids.Nodup) (hg : ∀ g ∈ gids, g ∈ all)
    {L : Nat → Nat → ℝ} {A : Sparse} (hA : A.pattern = allocateBlockDiagonal all) :
    ∃ A', addBlockDiagonalValues (dofIds 3 gids) L A = .ok A' := by
  unfold addBlockDiagonalValues
  have gen : ∀ (l : List (Nat × Nat)) (A : Sparse), (∀ x ∈ l, x.1 ∈ dofIds 3 gids) →
      A.pattern = allocateBlockDiagonal all →
      ∃ A', l.foldlM (fun A r => addBlockDiagonalRow (dofIds 3 gids) (L r.2) A r.1) A = .ok A' := by
    intro l
    induction l with
    | nil => intro A _ _; exact ⟨A, rfl⟩
    | cons x l ih =>
      intro A hx hA
      have hm := (mem_dofIds.1 (hx x (List.mem_cons_self ..))).2
      have hd : ∀ d < 3, (3 * (x.1 / 3) + d) ∈ dofIds 3 gids := by
        intro d hd
        refine mem_dofIds.2 ⟨by omega, ?_⟩
        rw [show (3 * (x.1 / 3) + d) / 3 = x.1 / 3 by omega]
        exact hm
      obtain ⟨i1, h1⟩ := inverseMap_defined (hd 0 (by omega))
      obtain ⟨i2, h2⟩ := inverseMap_defined (hd 1 (by omega))
      obtain ⟨i3, h3⟩ := inverseMap_defined (hd 2 (by omega))
      obtain ⟨A1, h4⟩ := addRow_defined (s := L x.2) (r := x.1)
        [(3 * (x.1 / 3), i1), (3 * (x.1 / 3) + 1, i2), (3 * (x.1 / 3) + 2, i3)] A (by
          intro y hy
          rw [hA]
          unfold allocateBlockDiagonal
          rw [if_pos (hg _ hm)]
          simp only [List.mem_cons, List.not_mem_nil, or_false] at hy
          rcases hy with rfl | rfl | rfl <;> simp)
      have h5 : addBlockDiagonalRow (dofIds 3 gids) (L x.2) A x.1 = .ok A1 := by
        unfold addBlockDiagonalRow
        rw [Nat.add_zero] at h1
        rw [h1, Outcome.ok_bind, h2, Outcome.ok_bind, h3, Outcome.ok_bind, h4]
      obtain ⟨A2, h6⟩ := ih A1 (fun y hy => hx y (List.mem_cons_of_mem _ hy))
        ((addBlockDiagonalRow_ok (dofIds_nodup hn) h5).1.trans hA)
      exact ⟨A2, BC.foldlM_cons_ok.2 ⟨A1, h5, h6⟩⟩
  exact gen _ A (fun x hx => by
    obtain ⟨_, h⟩ := List.getElem?_eq_some_iff.1 (List.mem_zipIdx_iff_getElem?.1 hx)
    exact h ▸ List.getElem_mem _) hA

/-- Finished or terminated with a message. -/
def Tidy {α : Type} (x : Outcome α) : Prop := (∃ a, x = .ok a) ∨ x = .fail .terminate

theorem Tidy.bind {α β : Type} {x : Outcome α} {f : α → Outcome β} (hx : Tidy x) (hf : ∀ a, Tidy (f a)) :
    Tidy (x >>= f) := by
  rcases hx with ⟨a, rfl⟩ | rfl
  · exact hf a
  · exact .inr rfl

theorem Tidy.fold {α β : Type} {f : α → β → Outcome α} (hf : ∀ a b, Tidy (f a b)) : ∀ (l : List β) (a : α),
    Tidy (l.foldlM f a)
  | [], a => .inl ⟨a, rfl⟩
  | b :: l, a => by
    rw [List.foldlM_cons]
    exact (hf a b).bind fun a' => Tidy.fold hf l a'

theorem tidy_addValues (rows : Nat → Prop) (idx : List Nat) (L : Nat → Nat → ℝ) (A : Sparse) :
    Tidy (addValues rows idx L A) := by
  unfold addValues
  split
  · exact .inr rfl
  · refine Tidy.fold (fun A r => Tidy.fold (fun A c => ?_) _ _) _ _
    unfold Sparse.add
    split
    · exact .inl ⟨_, rfl⟩
    · exact .inr rfl

/-- Values for two points cannot be added to a block-diagonal matrix. -/
theorem addValues_diagonal {rows : Nat → Prop} {gids all : List Nat} {L : Nat → Nat → ℝ} {A A' : Sparse} {p q : Nat}
    (hp : p ∈ gids) (hq : q ∈ gids) (hpq : p ≠ q) (hA : A.pattern = allocateBlockDiagonal all)
    (h : addValues rows (dofIds 3 gids) L A = .ok A') : False := by
  have key : ∀ (l : List (Nat × Nat)) (r : Nat) (s : Nat → ℝ) (A A' : Sparse), addRow s r l A = .ok A' →
      A'.pattern = A.pattern ∧ ∀ x ∈ l, x.1 ∈ A.pattern r := by
    intro l r s
    induction l with
    | nil => intro A A' h; exact ⟨(addRow_ok h).1, by simp⟩
    | cons x l ih =>
      intro A A' h
      have e := (addRow_ok h).1
      unfold addRow at h
      obtain ⟨A1, h1, h⟩ := BC.foldlM_cons_ok.1 h
      have e1 := (add_ok h1).1
      unfold Sparse.add at h1
      split at h1
      · rename_i hc
        refine ⟨e, fun y hy => ?_⟩
        rcases List.mem_cons.1 hy with rfl | hy
        · exact hc
        · rw [← e1]
          exact (ih A1 A' h).2 y hy
      · cases h1
  have rowsOk : ∀ (l : List (Nat × Nat)) (A A' : Sparse),
      l.foldlM (fun A r => addRow (L r.2) r.1 (dofIds 3 gids).zipIdx A) A = .ok A' →
      ∀ x ∈ l, ∀ y ∈ (dofIds 3 gids).zipIdx, y.1 ∈ A.pattern x.1 := by
    intro l
    induction l with
    | nil => intro A A' _ x hx; simp at hx
    | cons z l ih =>
      intro A A' h x hx y hy
      obtain ⟨A1, h1, h⟩ := BC.foldlM_cons_ok.1 h
      obtain ⟨e, m⟩ := key _ _ _ _ _ h1
      rcases List.mem_cons.1 hx with rfl | hx
      · exact m y hy
      · rw [← e]
        exact ih _ _ h x hx y hy
  unfold addValues at h
  split at h
  · cases h
  · have place : ∀ g ∈ gids, ∃ i, (3 * g, i) ∈ (dofIds 3 gids).zipIdx := by
      intro g hg
      have : 3 * g ∈ dofIds 3 gids := mem_dofIds.2 ⟨by omega, by rw [show 3 * g / 3 = g by omega]; exact hg⟩
      obtain ⟨i, hi⟩ := List.mem_iff_getElem?.1 this
      exact ⟨i, List.mem_zipIdx_iff_getElem?.2 hi⟩
    obtain ⟨i, hi⟩ := place p hp
    obtain ⟨j, hj⟩ := place q hq
    have := rowsOk _ _ _ h _ hi _ hj
    rw [hA] at this
    unfold allocateBlockDiagonal at this
    split at this
    · simp only [Finset.mem_insert, Finset.mem_singleton] at this
      omega
    · simp at this

/-! ### C90 -/

/-- **C90**: a material that hands the kind of tangent on can always assemble the block-diagonal tangent, if
every point has a neighbor and every point of a neighborhood is owned by some processor. -/
theorem C90_block_diagonal_defined_partial (P : Settings) (hP : Mechanical P) (he : P.epsilon ≠ 0) (ht : P.dt ≠ 0)
    (K : Kernel) (Q : FluxKernel) (F : Fields) (S : Scratch) (parts : List Part) (hv : ∀ p ∈ parts, p.Valid)
    (hn : ∀ h ∈ allHoods parts, h.Nodup) (hK : Evaluable K F.y F.v P.epsilon P.dt (allHoods parts))
    (hj : Joined parts) (gids : List Nat) (hg : ∀ h ∈ allHoods parts, ∀ g ∈ h, g ∈ gids) :
    ∃ A, assemble P .blockDiagonal K Q F S (parts.map Part.proc) (Sparse.zero (allocateBlockDiagonal gids)) =
      .ok A := by
  have step : ∀ ps : List Part, (∀ p ∈ ps, p ∈ parts) → ∀ A : Sparse, A.pattern = allocateBlockDiagonal gids →
      ∃ A', assemble P .blockDiagonal K Q F S (ps.map Part.proc) A = .ok A' := by
    intro ps
    induction ps with
    | nil => intro _ A _; exact ⟨A, rfl⟩
    | cons p ps ih =>
      intro hps A hA
      have hp := hps p (List.mem_cons_self ..)
      obtain ⟨s, h1, e1⟩ := fold_points_defined (pat := allocateBlockDiagonal gids) (hs := p.hoods)
        (f := addPoint P .blockDiagonal K Q F (p.proc.rows P.numDof)) (by
          intro h hh s es
          have hall : h ∈ allHoods parts := List.mem_flatMap.2 ⟨p, hp, hh⟩
          obtain ⟨r, hr⟩ := localMatrix_mech_defined hP (Q := Q) (F := F) s.1 ((joined_iff hv).1 hj h hall) he ht
            (evaluable_local hK hall (hn h hall))
          obtain ⟨A', hA'⟩ := addBlockDiagonalValues_defined (L := r.2) (hn h hall) (hg h hall) es
          refine ⟨(r.1, A'), ?_, (addBlockDiagonalValues_ok (hn h hall) hA').1.trans es⟩
          unfold addPoint
          rw [hr, Outcome.ok_bind, hP.numDof]
          show (addBlockDiagonalValues (dofIds 3 h) r.2 s.2 >>= _) = _
          rw [hA', Outcome.ok_bind]) (S, A) hA
      obtain ⟨A', h2⟩ := ih (fun q hq => hps q (List.mem_cons_of_mem _ hq)) s.2 e1
      refine ⟨A', ?_⟩
      rw [List.map_cons]
      unfold assemble finiteDifference
      rw [Part.hoods_ok (hv p hp), Outcome.ok_bind, h1, Outcome.ok_bind, Outcome.ok_bind]
      exact h2
  exact step parts (fun _ h => h) _ rfl

/-- **C90** is false for the elastic-plastic materials: if there is any point, the request for a block-diagonal
tangent terminates the program. -/
theorem C90_elastic_plastic_terminates (P : Settings) (hP : Mechanical P) (he : P.epsilon ≠ 0) (ht : P.dt ≠ 0)
    (K : Kernel) (Q : FluxKernel) (F : Fields) (S : Scratch) (parts : List Part) (hv : ∀ p ∈ parts, p.Valid)
    (hn : ∀ h ∈ allHoods parts, h.Nodup) (hK : Evaluable K F.y F.v P.epsilon P.dt (allHoods parts))
    (gids : List Nat) (hc : ∃ p ∈ parts, p.nbs ≠ []) :
    elasticPlasticTangent P .blockDiagonal K Q F S (parts.map Part.proc)
      (Sparse.zero (allocateBlockDiagonal gids)) = .fail .terminate := by
  unfold elasticPlasticTangent
  -- one neighborhood
  have one : ∀ h ∈ allHoods parts, ∀ rows (s : Scratch × Sparse), s.2.pattern = allocateBlockDiagonal gids →
      addPoint P .full K Q F rows s h = .fail .terminate := by
    intro h hh rows s hs
    by_cases hl : h.length ≤ 1
    · unfold addPoint localMatrix
      rw [bondMap_isolated hl]
      rfl
    obtain ⟨r, hr⟩ := localMatrix_mech_defined hP (Q := Q) s.1 (by omega) he ht (evaluable_local hK hh (hn h hh))
    have e : addPoint P .full K Q F rows s h =
        (addValues rows (dofIds 3 h) r.2 s.2 >>= fun A => .ok (r.1, A)) := by
      unfold addPoint
      rw [hr, Outcome.ok_bind, hP.numDof]
      rfl
    rw [e]
    rcases tidy_addValues rows (dofIds 3 h) r.2 s.2 with ⟨A, hA⟩ | hA
    · have hne : h[0] ≠ h[1] := fun e => by
        have := (List.Nodup.getElem_inj_iff (hn h hh)).1 e
        omega
      exact absurd hA fun hA =>
        addValues_diagonal (List.getElem_mem (by omega)) (List.getElem_mem (by omega)) hne hs hA
    · rw [hA]; rfl
  have all : ∀ ps : List Part, (∀ p ∈ ps, p ∈ parts) → (∃ p ∈ ps, p.nbs ≠ []) → ∀ A : Sparse,
      A.pattern = allocateBlockDiagonal gids → assemble P .full K Q F S (ps.map Part.proc) A = .fail .terminate := by
    intro ps
    induction ps with
    | nil => rintro _ ⟨p, hp, _⟩; cases hp
    | cons p ps ih =>
      intro hps hc A hA
      have hp := hps p (List.mem_cons_self ..)
      rw [List.map_cons]
      unfold assemble finiteDifference
      rw [Part.hoods_ok (hv p hp), Outcome.ok_bind]
      cases hh : p.hoods with
      | nil =>
        rw [List.foldlM_nil]
        refine ih (fun q hq => hps q (List.mem_cons_of_mem _ hq)) ?_ A hA
        obtain ⟨q, hq, hne⟩ := hc
        rcases List.mem_cons.1 hq with rfl | hq
        · unfold Part.hoods at hh
          rw [List.map_eq_nil_iff, List.zipIdx_eq_nil_iff] at hh
          exact absurd hh hne
        · exact ⟨q, hq, hne⟩
      | cons h hs =>
        rw [List.foldlM_cons, one h (List.mem_flatMap.2 ⟨p, hp, by rw [hh]; exact List.mem_cons_self⟩) _ (S, A) hA]
        rfl
  exact all parts (fun _ h => h) hc _ rfl

/-- The hypotheses of C90 are met. -/
example : (∀ P ∈ pair, P.Valid) ∧ (∀ h ∈ allHoods pair, h.Nodup) ∧ (∃ p ∈ pair, p.nbs ≠ []) ∧ Joined pair ∧
    (∀ h ∈ allHoods pair, ∀ g ∈ h, g ∈ [0, 1]) ∧
    Evaluable (spring fun _ => 1) (fun _ => 0) (fun _ => 0) (1 / 1000) (1 / 10) (allHoods pair) := by
  refine ⟨pair_valid, pair_nodup, ?_, pair_joined, ?_, spring_evaluable _ _ _ _ _ _⟩
  · unfold pair; decide
  · rw [pair_hoods]; decide

/-! ### C91 -/

/-- Neither fails nor terminates. -/
theorem fold_not_fail {α β : Type} {f : α → β → Outcome α} (hf : ∀ a b e, f a b ≠ .fail e) :
    ∀ (l : List β) (a : α) e, l.foldlM f a ≠ .fail e
  | [], a, e => fun h => by cases h
  | b :: l, a, e => by
    rw [List.foldlM_cons]
    cases h : f a b with
    | ok a' => exact fold_not_fail hf l a' e
    | fail e' => exact absurd h (hf a b e')
    | ub => intro h; cases h

theorem fold_reaches {α β : Type} {f : α → β → Outcome α} : ∀ {l : List β} {a a' : α}, l.foldlM f a = .ok a' →
    ∀ b ∈ l, ∃ s s', f s b = .ok s'
  | [], _, _, _, b, hb => by simp at hb
  | c :: l, a, a', h, b, hb => by
    obtain ⟨a1, h1, h⟩ := BC.foldlM_cons_ok.1 h
    rcases List.mem_cons.1 hb with rfl | hb
    · exact ⟨a, a1, h1⟩
    · exact fold_reaches h b hb

/-- **C91** is false: if displacements and temperatures are unknowns, the finite-difference tangent of any
point with neighbors has undefined behaviour, because forces are addressed with the number of unknowns for each point. -/
theorem C91_coupled_undefined (P : Settings) (h4 : P.numDof = 4) (h3 : P.numDisplacementDof = 3)
    (K : Kernel) (Q : FluxKernel) (F : Fields) (gids : List Nat) (h1 : 1 < gids.length) (S : Scratch)
    (hK : ∀ y v, ∃ f, K gids y v = .ok f) : localMatrix P K Q F gids S = .ub := by
  have hn : 0 < gids.length := by omega
  have col : ∀ f1 f0 S offset c e, writeColumn P gids.length 4 4 (3 * gids.length) offset c f1 f0 S ≠ .fail e := by
    intro f1 f0 S offset c e
    unfold writeColumn
    refine fold_not_fail (fun S id e => fold_not_fail (fun S d e => ?_) _ _ _) _ _ _
    split
    · unfold Scratch.write
      split <;> exact fun h => by cases h
    · exact fun h => by cases h
  have first : ∀ S pid, displacementColumn P K gids (gather 3 gids F.y) (gather 3 gids F.v) pid S 0 = .ub := by
    intro S pid
    unfold displacementColumn
    simp only
    split
    · rfl
    · obtain ⟨f0, h0⟩ := hK (Function.update (gather 3 gids F.y) (P.numDof * pid + 0)
        (gather 3 gids F.y (P.numDof * pid + 0) - P.epsilon)) (Function.update (gather 3 gids F.v)
        (P.numDof * pid + 0) (gather 3 gids F.v (P.numDof * pid + 0) - P.epsilon / P.dt))
      obtain ⟨f1, h1⟩ := hK (Function.update (gather 3 gids F.y) (P.numDof * pid + 0)
        (gather 3 gids F.y (P.numDof * pid + 0) + P.epsilon)) (Function.update (gather 3 gids F.v)
        (P.numDof * pid + 0) (gather 3 gids F.v (P.numDof * pid + 0) + P.epsilon / P.dt))
      rw [h0, Outcome.ok_bind, h1, Outcome.ok_bind, h4]
      cases h : writeColumn P gids.length 4 4 (3 * gids.length) P.displacementOffset
          (4 * pid + P.displacementOffset + 0) f1 f0 S with
      | ub => rfl
      | fail e => exact absurd h (col _ _ _ _ _ _)
      | ok S' =>
        exfalso
        unfold writeColumn at h
        obtain ⟨s, s', h⟩ := fold_reaches h (gids.length - 1) ((mem_visitOrder hn).2 (by omega))
        obtain ⟨s, s', h⟩ := fold_reaches h 3 (by simp)
        rw [if_neg (by omega)] at h
        cases h
  have point : ∀ S pid, perturbPoint P K Q gids (gather 3 gids F.y) (gather 3 gids F.v) (gather 1 gids F.T) S pid =
      .ub := by
    intro S pid
    unfold perturbPoint
    rw [h3, show List.range 3 = 0 :: [1, 2] from rfl, List.foldlM_cons, first]
    rfl
  unfold localMatrix
  rw [bondMap_ok h1, Outcome.ok_bind]
  cases hv : visitOrder gids.length with
  | nil =>
    have := (mem_visitOrder hn).2 hn
    rw [hv] at this
    simp at this
  | cons a l =>
    rw [List.foldlM_cons, point]
    rfl

/-- The hypotheses of C91 are met. -/
example : ∃ P : Settings, P.numDof = 4 ∧ P.numDisplacementDof = 3 ∧ P.temperatureOffset = 3 ∧
    ∀ y v, ∃ f, spring (fun _ => 1) [0, 1] y v = .ok f :=
  ⟨⟨4, 3, 0, true, 3, 1 / 1000, 1⟩, rfl, rfl, rfl, fun _ _ => ⟨_, rfl⟩⟩

end Verif.Tangent
