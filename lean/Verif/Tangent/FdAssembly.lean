import Verif.Tangent.FdLocal

/-! Assembly of the finite-difference tangent from the neighborhoods. -/

noncomputable section

namespace Verif.Tangent

open Verif Verif.Neigh Verif.Mech
open scoped Classical

/-! ### Block-diagonal assembly -/

theorem inverseMap_ok {idx : List Nat} (hn : idx.Nodup) {c i : Nat} (h : inverseMap idx c = .ok i) :
    c ∈ idx ∧ i = idx.idxOf c := by
  unfold inverseMap at h
  split at h
  next x hx =>
    cases h
    have h1 := List.find?_some hx
    have h2 := List.mem_of_find?_eq_some hx
    simp only [decide_eq_true_eq] at h1
    rw [List.mem_reverse] at h2
    have h3 := List.mem_zipIdx_iff_getElem?.1 h2
    rw [h1] at h3
    obtain ⟨hlt, e⟩ := List.getElem?_eq_some_iff.1 h3
    have := hn.idxOf_getElem _ hlt
    rw [e] at this
    exact ⟨e ▸ List.getElem_mem _, this.symm⟩
  next => cases h

theorem addBlockDiagonalRow_ok {idx : List Nat} (hn : idx.Nodup) {s : Nat → ℝ} {A A' : Sparse} {r : Nat}
    (h : addBlockDiagonalRow idx s A r = .ok A') : A'.pattern = A.pattern ∧
    ∀ R C, A'.val R C = A.val R C + if R = r ∧ C / 3 = r / 3 then s (idx.idxOf C) else 0 := by
  unfold addBlockDiagonalRow at h
  obtain ⟨i1, h1, h⟩ := Outcome.bind_eq_ok.1 h
  obtain ⟨i2, h2, h⟩ := Outcome.bind_eq_ok.1 h
  obtain ⟨i3, h3, h⟩ := Outcome.bind_eq_ok.1 h
  obtain ⟨e, v⟩ := addRow_ok h
  refine ⟨e, fun R C => ?_⟩
  rw [v]
  congr 1
  by_cases hR : R = r
  · rw [if_pos hR]
    simp only [List.map_cons, List.map_nil, List.sum_cons, List.sum_nil]
    rw [(inverseMap_ok hn h1).2, (inverseMap_ok hn h2).2, (inverseMap_ok hn h3).2]
    by_cases hC : C / 3 = r / 3
    · have c1 : R = r ∧ C / 3 = r / 3 := ⟨hR, hC⟩
      have : C = 3 * (r / 3) ∨ C = 3 * (r / 3) + 1 ∨ C = 3 * (r / 3) + 2 := by omega
      have n1 : 3 * (r / 3) ≠ 3 * (r / 3) + 1 := by omega
      have n2 : 3 * (r / 3) ≠ 3 * (r / 3) + 2 := by omega
      have n3 : 3 * (r / 3) + 1 ≠ 3 * (r / 3) + 2 := by omega
      rw [if_pos c1]
      rcases this with e | e | e
      · rw [← e] at n1 n2 ⊢
        rw [if_pos rfl, if_neg n1.symm, if_neg n2.symm]; ring
      · rw [← e] at n1 n3 ⊢
        rw [if_neg n1, if_pos rfl, if_neg n3.symm]; ring
      · rw [← e] at n2 n3 ⊢
        rw [if_neg n2, if_neg n3, if_pos rfl]; ring
    · have c1 : ¬ (R = r ∧ C / 3 = r / 3) := fun h => hC h.2
      have n1 : 3 * (r / 3) ≠ C := by omega
      have n2 : 3 * (r / 3) + 1 ≠ C := by omega
      have n3 : 3 * (r / 3) + 2 ≠ C := by omega
      rw [if_neg c1, if_neg n1, if_neg n2, if_neg n3]
      ring
  · rw [if_neg hR, if_neg (fun h => hR h.1)]

theorem addBlockDiagonalValues_ok {gids : List Nat} (hn : gids.Nodup) {L : Nat → Nat → ℝ} {A A' : Sparse}
    (h : addBlockDiagonalValues (dofIds 3 gids) L A = .ok A') : A'.pattern = A.pattern ∧
    ∀ R C, A'.val R C = A.val R C + if R ∈ dofIds 3 gids ∧ C / 3 = R / 3 then
      L ((dofIds 3 gids).idxOf R) ((dofIds 3 gids).idxOf C) else 0 := by
  have hi := dofIds_nodup (D := 3) hn
  unfold addBlockDiagonalValues at h
  have gen : ∀ (idx : List Nat) (k : Nat) (A A' : Sparse), idx.Nodup →
      (idx.zipIdx k).foldlM (fun A r => addBlockDiagonalRow (dofIds 3 gids) (L r.2) A r.1) A = .ok A' →
      A'.pattern = A.pattern ∧ ∀ R C, A'.val R C = A.val R C + if R ∈ idx ∧ C / 3 = R / 3 then
        L (k + idx.idxOf R) ((dofIds 3 gids).idxOf C) else 0 := by
    intro idx
    induction idx with
    | nil =>
      intro k A A' _ h
      cases h
      exact ⟨rfl, by simp⟩
    | cons a idx ih =>
      intro k A A' hd h
      rw [List.nodup_cons] at hd
      rw [List.zipIdx_cons] at h
      obtain ⟨A1, h1, h⟩ := BC.foldlM_cons_ok.1 h
      obtain ⟨e1, v1⟩ := addBlockDiagonalRow_ok hi h1
      obtain ⟨e2, v2⟩ := ih _ _ _ hd.2 h
      refine ⟨e2.trans e1, fun R C => ?_⟩
      rw [v2, v1]
      by_cases hRa : R = a
      · subst hRa
        simp [hd.1]
      · by_cases hR : R ∈ idx
        · rw [if_neg (fun h => hRa h.1), List.idxOf_cons_ne _ (fun h => hRa h.symm)]
          by_cases hC : C / 3 = R / 3
          · rw [if_pos ⟨hR, hC⟩, if_pos ⟨List.mem_cons_of_mem _ hR, hC⟩, add_zero]
            congr 2
            omega
          · rw [if_neg (fun h => hC h.2), if_neg (fun h => hC h.2), add_zero]
        · rw [if_neg (fun h => hRa h.1), if_neg (fun h => hR h.1), if_neg, add_zero]
          rintro ⟨h, _⟩
          rcases List.mem_cons.1 h with h | h
          · exact hRa h
          · exact hR h
  have := gen _ 0 _ _ hi h
  simpa only [Nat.zero_add] using this

/-! ### One neighborhood -/

/-- What the neighborhood `h` contributes to the force. -/
def hoodForce (K : Kernel) (Y V : Nat → ℝ) (h : List Nat) : Nat → ℝ :=
  spread 3 h (out (K h (gather 3 h Y) (gather 3 h V)))

/-- What the neighborhood `h` contributes to the flux divergence. -/
def hoodFlux (Q : FluxKernel) (T : Nat → ℝ) (h : List Nat) : Nat → ℝ :=
  spread 1 h (out (Q h (gather 1 h T)))

theorem hood_entry {P : Settings} {K : Kernel} {F : Fields} {h : List Nat} (hn : h.Nodup) (R C : Nat) :
    (if R / 3 ∈ h ∧ C / 3 ∈ h then mechEntry P K h (gather 3 h F.y) (gather 3 h F.v) (slot 3 h R) (slot 3 h C) *
      gather 1 h F.vol (slot 3 h R / 3) else 0) =
    F.vol (R / 3) * ((hoodForce K (bump F.y C P.epsilon) (bump F.v C (P.epsilon / P.dt)) h R -
      hoodForce K (bump F.y C (-P.epsilon)) (bump F.v C (-(P.epsilon / P.dt))) h R) / (2 * P.epsilon)) := by
  unfold hoodForce
  by_cases hC : C / 3 ∈ h
  · rw [gather_bump_in (by omega) hn hC, gather_bump_in (by omega) hn hC, gather_bump_in (by omega) hn hC,
      gather_bump_in (by omega) hn hC]
    unfold spread
    by_cases hR : R / 3 ∈ h
    · rw [if_pos ⟨hR, hC⟩, if_pos hR, if_pos hR, slot_div (by omega), gather_one (List.getElem?_idxOf hR)]
      unfold mechEntry quot slot
      rw [mul_comm (F.vol _), div_mul_eq_div_div_swap]
      norm_num
      left
      ring
    · rw [if_neg (fun h => hR h.1), if_neg hR, if_neg hR]
      simp
  · rw [if_neg (fun h => hC h.2), gather_bump_out (by omega) hC, gather_bump_out (by omega) hC,
      gather_bump_out (by omega) hC, gather_bump_out (by omega) hC]
    simp

theorem hood_flux_entry {P : Settings} {Q : FluxKernel} {F : Fields} {h : List Nat} (hn : h.Nodup) (R C : Nat) :
    (if R ∈ h ∧ C ∈ h then thermEntry P Q h (gather 1 h F.T) (slot 1 h R) (slot 1 h C) *
      gather 1 h F.vol (slot 1 h R) else 0) =
    F.vol R * ((hoodFlux Q (bump F.T C P.epsilon) h R - hoodFlux Q (bump F.T C (-P.epsilon)) h R) /
      (2 * P.epsilon)) := by
  unfold hoodFlux
  by_cases hC : C / 1 ∈ h
  · rw [gather_bump_in (by omega) hn hC, gather_bump_in (by omega) hn hC]
    unfold spread
    by_cases hR : R / 1 ∈ h
    · have hR' : R ∈ h := by rwa [Nat.div_one] at hR
      have hC' : C ∈ h := by rwa [Nat.div_one] at hC
      rw [if_pos ⟨hR', hC'⟩, if_pos hR, if_pos hR, gather_slot (by omega) hR]
      unfold thermEntry quot slot
      rw [mul_comm (F.vol _), div_mul_eq_div_div_swap]
      norm_num
      left
      ring
    · rw [if_neg (fun h => hR (by rw [Nat.div_one]; exact h.1)), if_neg hR, if_neg hR]
      simp
  · rw [if_neg (fun h => hC (by rw [Nat.div_one]; exact h.2)), gather_bump_out (by omega) hC,
      gather_bump_out (by omega) hC]
    simp

/-- The entries that are kept. -/
def Kept : Kind → Nat → Nat → Prop
  | .full, _, _ => True
  | .blockDiagonal, R, C => C / 3 = R / 3

theorem addPoint_mech {P : Settings} (hP : Mechanical P) {kind : Kind} {K : Kernel} {Q : FluxKernel} {F : Fields}
    {rows : Nat → Prop} {s s' : Scratch × Sparse} {h : List Nat} (hn : h.Nodup) (h0 : 0 < h.length)
    (hs : addPoint P kind K Q F rows s h = .ok s') : s'.2.pattern = s.2.pattern ∧ ∀ R C, s'.2.val R C =
    s.2.val R C + if Kept kind R C then
      F.vol (R / 3) * ((hoodForce K (bump F.y C P.epsilon) (bump F.v C (P.epsilon / P.dt)) h R -
      hoodForce K (bump F.y C (-P.epsilon)) (bump F.v C (-(P.epsilon / P.dt))) h R) / (2 * P.epsilon)) else 0 := by
  unfold addPoint at hs
  obtain ⟨SL, h1, hs⟩ := Outcome.bind_eq_ok.1 hs
  obtain ⟨A, h2, hs⟩ := Outcome.bind_eq_ok.1 hs
  cases hs
  have hL := localMatrix_mech hP h0 h1
  rw [hP.numDof] at h2
  cases kind with
  | full =>
    obtain ⟨e, v⟩ := addValues_ok (dofIds_nodup hn) h2
    refine ⟨e, fun R C => ?_⟩
    rw [if_pos (show Kept .full R C from trivial), ← hood_entry hn]
    show A.val R C = _
    rw [v]
    congr 1
    by_cases hc : R / 3 ∈ h ∧ C / 3 ∈ h
    · rw [if_pos hc, if_pos ⟨mem_dofIds.2 ⟨by omega, hc.1⟩, mem_dofIds.2 ⟨by omega, hc.2⟩⟩,
        idxOf_dofIds (by omega) hn hc.1, idxOf_dofIds (by omega) hn hc.2]
      exact hL _ (slot_lt (by omega) hc.1) _ (slot_lt (by omega) hc.2)
    · rw [if_neg hc, if_neg]
      rintro ⟨a, b⟩
      exact hc ⟨(mem_dofIds.1 a).2, (mem_dofIds.1 b).2⟩
  | blockDiagonal =>
    obtain ⟨e, v⟩ := addBlockDiagonalValues_ok hn h2
    refine ⟨e, fun R C => ?_⟩
    show A.val R C = _
    rw [v]
    congr 1
    by_cases hk : C / 3 = R / 3
    · rw [if_pos (show Kept .blockDiagonal R C from hk), ← hood_entry hn]
      by_cases hc : R / 3 ∈ h
      · have hc' : C / 3 ∈ h := hk ▸ hc
        rw [if_pos ⟨mem_dofIds.2 ⟨by omega, hc⟩, hk⟩, if_pos ⟨hc, hc'⟩, idxOf_dofIds (by omega) hn hc,
          idxOf_dofIds (by omega) hn hc']
        exact hL _ (slot_lt (by omega) hc) _ (slot_lt (by omega) hc')
      · have n1 : ¬ (R / 3 ∈ h ∧ C / 3 ∈ h) := fun h => hc h.1
        have n2 : ¬ (R ∈ dofIds 3 h ∧ C / 3 = R / 3) := fun h => hc (mem_dofIds.1 h.1).2
        rw [if_neg n1, if_neg n2]
    · rw [if_neg (show ¬ Kept .blockDiagonal R C from hk), if_neg (fun h => hk h.2)]

theorem addPoint_therm {P : Settings} (hP : Thermal P) {K : Kernel} {Q : FluxKernel} {F : Fields}
    {rows : Nat → Prop} {s s' : Scratch × Sparse} {h : List Nat} (hn : h.Nodup) (h0 : 0 < h.length)
    (hs : addPoint P .full K Q F rows s h = .ok s') : s'.2.pattern = s.2.pattern ∧ ∀ R C, s'.2.val R C =
    s.2.val R C + F.vol R * ((hoodFlux Q (bump F.T C P.epsilon) h R -
      hoodFlux Q (bump F.T C (-P.epsilon)) h R) / (2 * P.epsilon)) := by
  unfold addPoint at hs
  obtain ⟨SL, h1, hs⟩ := Outcome.bind_eq_ok.1 hs
  obtain ⟨A, h2, hs⟩ := Outcome.bind_eq_ok.1 hs
  cases hs
  have hL := localMatrix_therm hP h0 h1
  rw [hP.numDof] at h2
  obtain ⟨e, v⟩ := addValues_ok (dofIds_nodup hn) h2
  refine ⟨e, fun R C => ?_⟩
  rw [← hood_flux_entry hn]
  show A.val R C = _
  rw [v]
  congr 1
  have d1 : ∀ r, r / 1 = r := Nat.div_one
  by_cases hc : R ∈ h ∧ C ∈ h
  · rw [if_pos hc, if_pos ⟨mem_dofIds.2 ⟨by omega, by rw [d1]; exact hc.1⟩,
      mem_dofIds.2 ⟨by omega, by rw [d1]; exact hc.2⟩⟩,
      idxOf_dofIds (by omega) hn (by rw [d1]; exact hc.1), idxOf_dofIds (by omega) hn (by rw [d1]; exact hc.2)]
    have a := slot_lt (D := 1) (by omega) (gids := h) (r := R) (by rw [d1]; exact hc.1)
    have b := slot_lt (D := 1) (by omega) (gids := h) (r := C) (by rw [d1]; exact hc.2)
    rw [Nat.one_mul] at a b
    exact hL _ a _ b
  · rw [if_neg hc, if_neg]
    rintro ⟨a, b⟩
    exact hc ⟨by simpa using (mem_dofIds.1 a).2, by simpa using (mem_dofIds.1 b).2⟩

/-! ### All neighborhoods -/

theorem fold_points {f : Scratch × Sparse → List Nat → Outcome (Scratch × Sparse)} {R C : Nat} {g : List Nat → ℝ}
    {hs : List (List Nat)} (hf : ∀ h ∈ hs, ∀ s s', f s h = .ok s' → s'.2.val R C = s.2.val R C + g h) :
    ∀ s s', hs.foldlM f s = .ok s' → s'.2.val R C = s.2.val R C + (hs.map g).sum := by
  induction hs with
  | nil =>
    intro s s' h
    cases h
    simp
  | cons h hs ih =>
    intro s s' e
    obtain ⟨s1, e1, e⟩ := BC.foldlM_cons_ok.1 e
    rw [ih (fun h hh => hf h (List.mem_cons_of_mem _ hh)) _ _ e, hf h (List.mem_cons_self ..) _ _ e1,
      List.map_cons, List.sum_cons]
    ring

theorem assemble_val {P : Settings} {kind : Kind} {K : Kernel} {Q : FluxKernel} {F : Fields} {S : Scratch}
    {R C : Nat} {g : List Nat → ℝ} : ∀ {parts : List Part}, (∀ p ∈ parts, p.Valid) →
    (∀ h ∈ allHoods parts, ∀ rows s s', addPoint P kind K Q F rows s h = .ok s' →
      s'.2.val R C = s.2.val R C + g h) → ∀ {A A' : Sparse},
    assemble P kind K Q F S (parts.map Part.proc) A = .ok A' →
    A'.val R C = A.val R C + ((allHoods parts).map g).sum
  | [], _, _, A, A', h => by
    cases h
    simp [allHoods]
  | p :: parts, hv, hg, A, A', h => by
    rw [List.map_cons] at h
    unfold assemble at h
    obtain ⟨A1, h1, h⟩ := Outcome.bind_eq_ok.1 h
    unfold finiteDifference at h1
    rw [Part.hoods_ok (hv p (List.mem_cons_self ..)), Outcome.ok_bind] at h1
    obtain ⟨s, h2, h1⟩ := Outcome.bind_eq_ok.1 h1
    cases h1
    have e1 := fold_points (fun h hh s s' e => hg h (List.mem_flatMap.2 ⟨p, List.mem_cons_self .., hh⟩) _ s s' e)
      _ _ h2
    have e2 := assemble_val (fun q hq => hv q (List.mem_cons_of_mem _ hq)) (fun h hh => hg h (by
      obtain ⟨q, hq, hh⟩ := List.mem_flatMap.1 hh
      exact List.mem_flatMap.2 ⟨q, List.mem_cons_of_mem _ hq, hh⟩)) h
    rw [e2, e1]
    unfold allHoods
    rw [List.flatMap_cons, List.map_append, List.sum_append]
    ring

theorem internalForce_val {K : Kernel} {Y V : Nat → ℝ} : ∀ {hs : List (List Nat)} {f : Nat → ℝ},
    internalForce K Y V hs = .ok f → ∀ r, f r = (hs.map fun h => hoodForce K Y V h r).sum
  | [], f, h, r => by
    cases h
    simp
  | h :: hs, f, e, r => by
    unfold internalForce at e
    obtain ⟨f1, e1, e⟩ := Outcome.bind_eq_ok.1 e
    obtain ⟨f2, e2, e⟩ := Outcome.bind_eq_ok.1 e
    cases e
    rw [List.map_cons, List.sum_cons, ← internalForce_val e2]
    unfold hoodForce
    rw [e1]
    rfl

theorem fluxDivergence_val {Q : FluxKernel} {T : Nat → ℝ} : ∀ {hs : List (List Nat)} {f : Nat → ℝ},
    fluxDivergence Q T hs = .ok f → ∀ r, f r = (hs.map fun h => hoodFlux Q T h r).sum
  | [], f, h, r => by
    cases h
    simp
  | h :: hs, f, e, r => by
    unfold fluxDivergence at e
    obtain ⟨f1, e1, e⟩ := Outcome.bind_eq_ok.1 e
    obtain ⟨f2, e2, e⟩ := Outcome.bind_eq_ok.1 e
    cases e
    rw [List.map_cons, List.sum_cons, ← fluxDivergence_val e2]
    unfold hoodFlux
    rw [e1]
    rfl

theorem sum_quotient (v e : ℝ) (a b : List Nat → ℝ) (hs : List (List Nat)) :
    (hs.map fun h => v * ((a h - b h) / e)).sum = v * (((hs.map a).sum - (hs.map b).sum) / e) := by
  induction hs with
  | nil => simp
  | cons h hs ih =>
    simp only [List.map_cons, List.sum_cons]
    rw [ih]
    ring

theorem hood_pos {P : Part} (hv : P.Valid) {h : List Nat} (hh : h ∈ P.hoods) : 0 < h.length := by
  obtain ⟨q, ns, hq, rfl⟩ := mem_hoods.1 hh
  obtain ⟨hlt, _⟩ := List.getElem?_eq_some_iff.1 hq
  exact List.length_pos_of_mem (mem_hood.2 (.inl (List.getElem?_eq_getElem (Nat.lt_of_lt_of_le hlt hv.1))))

theorem allHoods_pos {parts : List Part} (hv : ∀ p ∈ parts, p.Valid) {h : List Nat} (hh : h ∈ allHoods parts) :
    0 < h.length := by
  obtain ⟨p, hp, hh⟩ := List.mem_flatMap.1 hh
  exact hood_pos (hv p hp) hh

theorem hood_length {P : Part} (hv : P.Valid) {q : Nat} {ns : List Nat} (hq : P.nbs[q]? = some ns) :
    (P.hood q ns).length = ns.length + 1 := by
  unfold Part.hood
  obtain ⟨hlt, hget⟩ := List.getElem?_eq_some_iff.1 hq
  have key : ∀ l : List Nat, (∀ i ∈ l, i < P.overlap.length) →
      (l.filterMap fun i => P.overlap[i]?).length = l.length := by
    intro l
    induction l with
    | nil => intro _; rfl
    | cons i l ih =>
      intro hl
      rw [List.filterMap_cons, List.getElem?_eq_getElem (hl i List.mem_cons_self), List.length_cons, List.length_cons,
        ih fun j hj => hl j (List.mem_cons_of_mem _ hj)]
  rw [key, List.length_cons]
  intro i hi
  rcases List.mem_cons.1 hi with rfl | hi
  · exact Nat.lt_of_lt_of_le hlt hv.1
  · exact hv.2 ns (List.mem_of_getElem? hq) i hi

theorem joined_iff {parts : List Part} (hv : ∀ p ∈ parts, p.Valid) :
    Joined parts ↔ ∀ h ∈ allHoods parts, 1 < h.length := by
  constructor
  · intro hj h hh
    obtain ⟨p, hp, hh⟩ := List.mem_flatMap.1 hh
    obtain ⟨q, ns, hq, rfl⟩ := mem_hoods.1 hh
    rw [hood_length (hv p hp) hq]
    have := List.length_pos_iff.2 (hj p hp ns (List.mem_of_getElem? hq))
    omega
  · intro h p hp ns hns e
    obtain ⟨q, hq⟩ := List.mem_iff_getElem?.1 hns
    have := h (p.hood q ns) (List.mem_flatMap.2 ⟨p, hp, mem_hoods.2 ⟨q, ns, hq, rfl⟩⟩)
    rw [hood_length (hv p hp) hq, e] at this
    simp at this

end Verif.Tangent
