import Verif.Porous.Lemmas

/-! Assembly of the tangent of the coupled material from the neighborhoods. -/

noncomputable section

namespace Verif.Porous

open Verif Verif.Neigh Verif.Mech Verif.Tangent Verif.Fad
open scoped Classical Topology

/-- Forces and flows numbered like the unknowns. -/
def joint (f : (Nat → Num) × (Nat → Num)) (r : Nat) : Num := if r % 4 < 3 then f.1 (3 * (r / 4) + r % 4) else f.2 (r / 4)

theorem joint_force (f : (Nat → Num) × (Nat → Num)) {row sub : Nat} (h : sub < 3) : joint f (4 * row + sub) = f.1 (3 * row + sub) := by
  have h1 : (4 * row + sub) % 4 = sub := by omega
  have h2 : (4 * row + sub) / 4 = row := by omega
  unfold joint
  rw [h1, h2, if_pos h]

theorem joint_flow (f : (Nat → Num) × (Nat → Num)) (row : Nat) : joint f (4 * row + 3) = f.2 row := by
  have h1 : (4 * row + 3) % 4 = 3 := by omega
  have h2 : (4 * row + 3) / 4 = row := by omega
  unfold joint
  rw [h1, h2, if_neg (by omega)]

theorem writePack_ok {f : (Nat → Num) × (Nat → Num)} {vol : Nat → ℝ} {row col : Nat} {S S' : Scratch}
    (h : writePack f vol row col S = .ok S') : S'.dim = S.dim ∧ ∀ r c, S'.val r c =
      if r / 4 = row ∧ c = col then some ((joint f r).dx c * vol (r / 4)) else S.val r c := by
  unfold writePack at h
  obtain ⟨S4, h1, h⟩ := Outcome.bind_eq_ok.1 h
  rw [show List.range 3 = [0, 1, 2] from rfl] at h1
  obtain ⟨S1, a1, h1⟩ := BC.foldlM_cons_ok.1 h1
  obtain ⟨S2, a2, h1⟩ := BC.foldlM_cons_ok.1 h1
  obtain ⟨S3, a3, h1⟩ := BC.foldlM_cons_ok.1 h1
  cases h1
  obtain ⟨d1, v1⟩ := write_ok a1
  obtain ⟨d2, v2⟩ := write_ok a2
  obtain ⟨d3, v3⟩ := write_ok a3
  obtain ⟨d4, v4⟩ := write_ok h
  refine ⟨d4.trans (d3.trans (d2.trans d1)), fun r c => ?_⟩
  rw [v4, v3, v2, v1, ← joint_flow f row, ← joint_force f (row := row) (show 0 < 3 by omega),
    ← joint_force f (row := row) (show 1 < 3 by omega), ← joint_force f (row := row) (show 2 < 3 by omega)]
  by_cases hc : c = col
  · subst hc
    by_cases hr : r / 4 = row
    · rw [if_pos (show r / 4 = row ∧ c = c from ⟨hr, rfl⟩), hr]
      by_cases e3 : r = 4 * row + 3
      · rw [if_pos ⟨e3, rfl⟩, e3]
      rw [if_neg fun h => e3 h.1]
      by_cases e2 : r = 4 * row + 2
      · rw [if_pos ⟨e2, rfl⟩, e2]
      rw [if_neg fun h => e2 h.1]
      by_cases e1 : r = 4 * row + 1
      · rw [if_pos ⟨e1, rfl⟩, e1]
      have e0 : r = 4 * row + 0 := by omega
      rw [if_neg fun h => e1 h.1, if_pos ⟨e0, rfl⟩, e0]
    · rw [if_neg (show ¬ (r / 4 = row ∧ c = c) from fun h => hr h.1)]
      have e3 : ¬ r = 4 * row + 3 := by omega
      have e2 : ¬ r = 4 * row + 2 := by omega
      have e1 : ¬ r = 4 * row + 1 := by omega
      have e0 : ¬ r = 4 * row + 0 := by omega
      rw [if_neg fun h => e3 h.1, if_neg fun h => e2 h.1, if_neg fun h => e1 h.1, if_neg fun h => e0 h.1]
  · simp only [hc, and_false, if_false]

theorem writeAll_ok {n : Nat} {f : (Nat → Num) × (Nat → Num)} {vol : Nat → ℝ} {S S' : Scratch}
    (h : writeAll n f vol S = .ok S') : ∀ r < 4 * n, ∀ c < 4 * n, S'.val r c = some ((joint f r).dx c * vol (r / 4)) := by
  unfold writeAll at h
  obtain ⟨_, hv⟩ := fold_cells (fun r c => (joint f r).dx c * vol (r / 4)) (fun row r c => r / 4 = row ∧ c / 4 < n) (by
    intro S row S' hs
    obtain ⟨d, v⟩ := fold_cells (fun r c => (joint f r).dx c * vol (r / 4)) (fun col r c => r / 4 = row ∧ c / 4 = col) (by
      intro S col S' hs
      obtain ⟨d, v⟩ := fold_cells (fun r c => (joint f r).dx c * vol (r / 4)) (fun sub r c => r / 4 = row ∧ c = 4 * col + sub) (by
        intro S sub S' hs
        obtain ⟨d, v⟩ := writePack_ok hs
        refine ⟨d, fun r c => (v r c).trans ?_⟩
        split_ifs <;> rfl) _ _ _ hs
      refine ⟨d, fun r c => ?_⟩
      rw [v]
      have : (∃ a ∈ List.range 4, r / 4 = row ∧ c = 4 * col + a) ↔ (r / 4 = row ∧ c / 4 = col) := by
        constructor
        · rintro ⟨a, ha, h1, h2⟩
          have := List.mem_range.1 ha
          exact ⟨h1, by omega⟩
        · rintro ⟨h1, h2⟩
          exact ⟨c % 4, List.mem_range.2 (by omega), h1, by omega⟩
      by_cases hc : r / 4 = row ∧ c / 4 = col
      · rw [if_pos hc, if_pos (this.2 hc)]
      · rw [if_neg hc, if_neg (fun h => hc (this.1 h))]) _ _ _ hs
    refine ⟨d, fun r c => ?_⟩
    rw [v]
    have : (∃ a ∈ List.range n, r / 4 = row ∧ c / 4 = a) ↔ (r / 4 = row ∧ c / 4 < n) := by
      constructor
      · rintro ⟨a, ha, h1, rfl⟩; exact ⟨h1, List.mem_range.1 ha⟩
      · rintro ⟨h1, h2⟩; exact ⟨c / 4, List.mem_range.2 h2, h1, rfl⟩
    by_cases hc : r / 4 = row ∧ c / 4 < n
    · rw [if_pos hc, if_pos (this.2 hc)]
    · rw [if_neg hc, if_neg (fun h => hc (this.1 h))]) _ _ _ h
  intro r hr c hc
  rw [hv, if_pos ⟨r / 4, List.mem_range.2 (by omega), rfl, by omega⟩]

theorem write_defined {S : Scratch} {r c : Nat} (x : ℝ) (hr : r < S.dim) (hc : c < S.dim) :
    ∃ S', S.write r c x = .ok S' ∧ S'.dim = S.dim := ⟨_, if_pos ⟨hr, hc⟩, rfl⟩

theorem writePack_defined {n : Nat} (f : (Nat → Num) × (Nat → Num)) (vol : Nat → ℝ) {row col : Nat} {S : Scratch} (hd : 4 * n ≤ S.dim)
    (hr : row < n) (hc : col < 4 * n) : ∃ S', writePack f vol row col S = .ok S' ∧ S'.dim = S.dim := by
  obtain ⟨S1, h1, e1⟩ := fold_defined (f := fun S sub => S.write (4 * row + sub) col ((f.1 (3 * row + sub)).dx col * vol row)) S.dim
    (List.range 3) (by
      intro S2 sub hs hS
      have := List.mem_range.1 hs
      obtain ⟨S3, h, e⟩ := write_defined (S := S2) (r := 4 * row + sub) (c := col) ((f.1 (3 * row + sub)).dx col * vol row)
        (by omega) (by omega)
      exact ⟨S3, h, e.trans hS⟩) S rfl
  obtain ⟨S2, h2, e2⟩ := write_defined (S := S1) (r := 4 * row + 3) (c := col) ((f.2 row).dx col * vol row) (by omega) (by omega)
  refine ⟨S2, ?_, e2.trans e1⟩
  unfold writePack
  exact Outcome.bind_eq_ok.2 ⟨S1, h1, h2⟩

theorem writeAll_defined {n : Nat} (f : (Nat → Num) × (Nat → Num)) (vol : Nat → ℝ) (S : Scratch) (h : 4 * n ≤ S.dim) :
    ∃ S', writeAll n f vol S = .ok S' := by
  unfold writeAll
  obtain ⟨S', h1, _⟩ := fold_defined (f := fun S row =>
    (List.range n).foldlM (fun S col => (List.range 4).foldlM (fun S sub => writePack f vol row (4 * col + sub) S) S) S) S.dim
    (List.range n) (by
      intro S1 row hr hS
      refine fold_defined S.dim (List.range n) ?_ S1 hS
      intro S2 col hc hS2
      refine fold_defined S.dim (List.range 4) ?_ S2 hS2
      intro S3 sub hs hS3
      have := List.mem_range.1 hs
      have := List.mem_range.1 hc
      obtain ⟨S4, h4, e4⟩ := writePack_defined (n := n) f vol (row := row) (col := 4 * col + sub) (S := S3) (by omega)
        (List.mem_range.1 hr) (by omega)
      exact ⟨S4, h4, e4.trans hS3⟩) S rfl
  exact ⟨S', h1⟩

theorem adLocal_ok {A : AdRates} {X : State} {gids : List Nat} {S : Scratch} {r : Scratch × (Nat → Nat → ℝ)}
    (h : adLocal A X gids S = .ok r) : ∃ f, A gids (gather 3 gids X.y) (gather 1 gids X.p) = some f ∧
    ∀ i < 4 * gids.length, ∀ j < 4 * gids.length, r.2 i j = (joint f i).dx j * gather 1 gids X.vol (i / 4) := by
  unfold adLocal at h
  obtain ⟨_, _, h⟩ := Outcome.bind_eq_ok.1 h
  cases hA : A gids (gather 3 gids X.y) (gather 1 gids X.p) with
  | none => rw [hA] at h; cases h
  | some f =>
    rw [hA] at h
    simp only at h
    obtain ⟨S1, h1, h⟩ := Outcome.bind_eq_ok.1 h
    obtain ⟨L, h2, h⟩ := Outcome.bind_eq_ok.1 h
    rw [← Outcome.ok.inj h]
    obtain ⟨L', e, hL⟩ := entries_ok (writeAll_ok h1)
    rw [e] at h2
    rw [← Outcome.ok.inj h2]
    exact ⟨f, rfl, hL⟩

theorem adLocal_defined {A : AdRates} {X : State} {gids : List Nat} (S : Scratch) {f : (Nat → Num) × (Nat → Num)}
    (hs : 1 < gids.length) (h : A gids (gather 3 gids X.y) (gather 1 gids X.p) = some f) : ∃ r, adLocal A X gids S = .ok r := by
  obtain ⟨S1, h1⟩ := writeAll_defined f (gather 1 gids X.vol) (S.fit (4 * gids.length)) (fit_dim _ _)
  obtain ⟨L, h2, _⟩ := entries_ok (writeAll_ok h1)
  refine ⟨(S1, L), ?_⟩
  unfold adLocal
  rw [bondMap_ok hs, Outcome.ok_bind, h]
  simp only
  rw [h1, Outcome.ok_bind, h2, Outcome.ok_bind]

/-- The entry that one neighborhood contributes. -/
def adEntry (A : AdRates) (X : State) (h : List Nat) (R C : Nat) : ℝ :=
  if R / 4 ∈ h ∧ C / 4 ∈ h then
    match A h (gather 3 h X.y) (gather 1 h X.p) with
    | some f => (joint f (slot 4 h R)).dx (slot 4 h C) * X.vol (R / 4)
    | none => 0
  else 0

theorem adPoint_ok {A : AdRates} {X : State} {rows : Nat → Prop} {s s' : Scratch × Sparse} {h : List Nat}
    (hn : h.Nodup) (hs : adPoint .full A X rows s h = .ok s') : (∃ f, A h (gather 3 h X.y) (gather 1 h X.p) = some f) ∧
    s'.2.pattern = s.2.pattern ∧ ∀ R C, s'.2.val R C = s.2.val R C + adEntry A X h R C := by
  unfold adPoint at hs
  obtain ⟨SL, h1, hs⟩ := Outcome.bind_eq_ok.1 hs
  obtain ⟨M, h2, hs⟩ := Outcome.bind_eq_ok.1 hs
  cases hs
  obtain ⟨f, hf, hL⟩ := adLocal_ok h1
  refine ⟨⟨f, hf⟩, ?_⟩
  have key : ∀ R C, R / 4 ∈ h → C / 4 ∈ h → SL.2 (slot 4 h R) (slot 4 h C) = adEntry A X h R C := by
    intro R C hR hC
    rw [hL _ (slot_lt (by omega) hR) _ (slot_lt (by omega) hC), slot_div (by omega), gather_one (List.getElem?_idxOf hR)]
    unfold adEntry
    rw [if_pos ⟨hR, hC⟩, hf]
  obtain ⟨e, v⟩ := addValues_ok (dofIds_nodup hn) h2
  refine ⟨e, fun R C => ?_⟩
  show M.val R C = _
  rw [v]
  congr 1
  by_cases hc : R / 4 ∈ h ∧ C / 4 ∈ h
  · rw [if_pos ⟨mem_dofIds.2 ⟨by omega, hc.1⟩, mem_dofIds.2 ⟨by omega, hc.2⟩⟩,
      idxOf_dofIds (by omega) hn hc.1, idxOf_dofIds (by omega) hn hc.2]
    exact key R C hc.1 hc.2
  · rw [if_neg, adEntry, if_neg hc]
    rintro ⟨a, b⟩
    exact hc ⟨(mem_dofIds.1 a).2, (mem_dofIds.1 b).2⟩

/-- What the loops over points and processors make of a property of one pass. -/
theorem adTangent_ok {A : AdRates} {X : State} {S : Scratch} : ∀ {parts : List Part}, (∀ p ∈ parts, p.Valid) →
    (∀ h ∈ allHoods parts, h.Nodup) → ∀ {M M' : Sparse}, adTangent .full A X S (parts.map Part.proc) M = .ok M' →
    (∀ h ∈ allHoods parts, ∃ f, A h (gather 3 h X.y) (gather 1 h X.p) = some f) ∧
    ∀ R C, M'.val R C = M.val R C + ((allHoods parts).map fun h => adEntry A X h R C).sum
  | [], _, _, M, M', h => by
    cases h
    simp [allHoods]
  | p :: parts, hv, hn, M, M', h => by
    rw [List.map_cons] at h
    unfold adTangent at h
    obtain ⟨M1, h1, h⟩ := Outcome.bind_eq_ok.1 h
    unfold adOne at h1
    rw [Part.hoods_ok (hv p (List.mem_cons_self ..)), Outcome.ok_bind] at h1
    obtain ⟨s, h2, h1⟩ := Outcome.bind_eq_ok.1 h1
    cases h1
    have mem1 : ∀ h ∈ p.hoods, h ∈ allHoods (p :: parts) := fun h hh => List.mem_flatMap.2 ⟨p, List.mem_cons_self .., hh⟩
    have mem2 : ∀ h ∈ allHoods parts, h ∈ allHoods (p :: parts) := by
      intro h hh
      obtain ⟨q, hq, hh⟩ := List.mem_flatMap.1 hh
      exact List.mem_flatMap.2 ⟨q, List.mem_cons_of_mem _ hq, hh⟩
    have some1 : ∀ (hs : List (List Nat)) (s s' : Scratch × Sparse), (∀ h ∈ hs, h.Nodup) →
        hs.foldlM (adPoint .full A X (p.proc.rows 4)) s = .ok s' →
        ∀ h ∈ hs, ∃ f, A h (gather 3 h X.y) (gather 1 h X.p) = some f := by
      intro hs
      induction hs with
      | nil => intro _ _ _ _ h hh; cases hh
      | cons g hs ih =>
        intro s s' hn e h hh
        obtain ⟨s1, e1, e⟩ := BC.foldlM_cons_ok.1 e
        rcases List.mem_cons.1 hh with rfl | hh
        · exact (adPoint_ok (hn h List.mem_cons_self) e1).1
        · exact ih s1 s' (fun h hh => hn h (List.mem_cons_of_mem _ hh)) e h hh
    obtain ⟨a1, a2⟩ := adTangent_ok (fun q hq => hv q (List.mem_cons_of_mem _ hq)) (fun h hh => hn h (mem2 h hh)) h
    constructor
    · intro g hg
      obtain ⟨q, hq, hgq⟩ := List.mem_flatMap.1 hg
      rcases List.mem_cons.1 hq with rfl | hq
      · exact some1 _ _ _ (fun h hh => hn h (mem1 h hh)) h2 g hgq
      · exact a1 g (List.mem_flatMap.2 ⟨q, hq, hgq⟩)
    · intro R C
      have e1 := fold_points (R := R) (C := C) (g := fun h => adEntry A X h R C)
        (fun h hh s s' e => (adPoint_ok (hn h (mem1 h hh)) e).2.2 R C) _ _ h2
      rw [a2, e1]
      unfold allHoods
      rw [List.flatMap_cons, List.map_append, List.sum_append]
      ring

/-- No point was without neighbors. -/
theorem adTangent_joined {kind : Kind} {A : AdRates} {X : State} {S : Scratch} : ∀ {parts : List Part}, (∀ p ∈ parts, p.Valid) →
    ∀ {M M' : Sparse}, adTangent kind A X S (parts.map Part.proc) M = .ok M' → ∀ h ∈ allHoods parts, 1 < h.length
  | [], _, _, _, _, h, hh => by cases hh
  | p :: parts, hv, M, M', h, g, hg => by
    rw [List.map_cons] at h
    unfold adTangent at h
    obtain ⟨M1, h1, h⟩ := Outcome.bind_eq_ok.1 h
    unfold adOne at h1
    rw [Part.hoods_ok (hv p (List.mem_cons_self ..)), Outcome.ok_bind] at h1
    obtain ⟨s, h2, h1⟩ := Outcome.bind_eq_ok.1 h1
    obtain ⟨q, hq, hgq⟩ := List.mem_flatMap.1 hg
    rcases List.mem_cons.1 hq with rfl | hq
    · obtain ⟨t, t', e⟩ := fold_reaches h2 g hgq
      unfold adPoint adLocal at e
      obtain ⟨_, e, _⟩ := Outcome.bind_eq_ok.1 e
      obtain ⟨_, e, _⟩ := Outcome.bind_eq_ok.1 e
      exact bondMap_eq_ok e
    · exact adTangent_joined (fun q hq => hv q (List.mem_cons_of_mem _ hq)) h g (List.mem_flatMap.2 ⟨q, hq, hgq⟩)

/-- The tangent can be assembled if the local matrices can be computed. -/
theorem adTangent_full {A : AdRates} {X : State} (S : Scratch) {parts : List Part} (hv : ∀ p ∈ parts, p.Valid)
    (hn : ∀ h ∈ allHoods parts, h.Nodup) (hj : ∀ h ∈ allHoods parts, 1 < h.length)
    (hA : ∀ h ∈ allHoods parts, ∃ f, A h (gather 3 h X.y) (gather 1 h X.p) = some f) :
    ∃ R M, allocate 4 (parts.map Part.proc) = .ok R ∧ adTangent .full A X S (parts.map Part.proc) (Sparse.zero R) = .ok M := by
  obtain ⟨R, hR, hm⟩ := allocate_ok 4 parts hv
  have step : ∀ ps : List Part, (∀ p ∈ ps, p ∈ parts) → ∀ M : Sparse, M.pattern = R →
      ∃ M', adTangent .full A X S (ps.map Part.proc) M = .ok M' := by
    intro ps
    induction ps with
    | nil => intro _ M _; exact ⟨M, rfl⟩
    | cons p ps ih =>
      intro hps M hM
      have hp := hps p (List.mem_cons_self ..)
      obtain ⟨s, h1, e1⟩ := fold_points_defined (pat := R) (hs := p.hoods)
        (f := adPoint .full A X (p.proc.rows 4)) (by
          intro h hh s es
          have hall : h ∈ allHoods parts := List.mem_flatMap.2 ⟨p, hp, hh⟩
          obtain ⟨f, hf⟩ := hA h hall
          obtain ⟨r, hr⟩ := adLocal_defined s.1 (hj h hall) hf
          obtain ⟨A', hA'⟩ := addValues_defined (rows := p.proc.rows 4) (idx := dofIds 4 h) (L := r.2)
            (A := s.2)
            (by
              intro c hc
              obtain ⟨q, ns, hq, rfl⟩ := mem_hoods.1 hh
              obtain ⟨hlt, _⟩ := List.getElem?_eq_some_iff.1 hq
              have hlt' := Nat.lt_of_lt_of_le hlt (hv p hp).1
              have hd : 4 * p.overlap[q] / 4 = p.overlap[q] := Nat.mul_div_cancel_left _ (by omega)
              refine ⟨4 * p.overlap[q], ?_, ?_⟩
              · unfold Proc.rows
                rw [hd]
                exact List.mem_take_iff_getElem.2 ⟨q, lt_min hlt hlt', rfl⟩
              · rw [es, hm]
                refine ⟨_, hall, mem_dofIds.2 ⟨by omega, ?_⟩, hc⟩
                rw [hd]
                exact mem_hood.2 (.inl (List.getElem?_eq_getElem hlt')))
            (by
              intro r hr c hc
              rw [es, hm]
              exact ⟨h, hall, hr, hc⟩)
          refine ⟨(r.1, A'), ?_, ?_⟩
          · unfold adPoint
            rw [hr, Outcome.ok_bind]
            show (addValues (p.proc.rows 4) (dofIds 4 h) r.2 s.2 >>= _) = _
            rw [hA', Outcome.ok_bind]
          · exact (addValues_ok (dofIds_nodup (hn h hall)) hA').1.trans es) (S, M) hM
      obtain ⟨M', h2⟩ := ih (fun q hq => hps q (List.mem_cons_of_mem _ hq)) s.2 e1
      refine ⟨M', ?_⟩
      rw [List.map_cons]
      unfold adTangent adOne
      rw [Part.hoods_ok (hv p hp), Outcome.ok_bind, h1, Outcome.ok_bind, Outcome.ok_bind]
      exact h2
  obtain ⟨M, hM⟩ := step parts (fun _ h => h) (Sparse.zero R) rfl
  exact ⟨R, M, hR, hM⟩

/-! ### Derivatives -/

theorem slot_mod4 (h : List Nat) (C : Nat) : slot 4 h C % 4 = C % 4 := slot_mod 4 h C

theorem gather_y_in {h : List Nat} (hn : h.Nodup) {C : Nat} (hC : C / 4 ∈ h) (X : State) (s : ℝ) :
    gather 3 h (moved X C s).y = shiftY (gather 3 h X.y) (slot 4 h C) s := by
  unfold moved shiftY
  rw [slot_mod4, slot_div (by omega)]
  split
  · next hc =>
    have e : (3 * (C / 4) + C % 4) / 3 = C / 4 := by omega
    have e' : (3 * (C / 4) + C % 4) % 3 = C % 4 := by omega
    show gather 3 h (bump X.y _ s) = _
    rw [gather_bump_in (by omega) hn (by rw [e]; exact hC)]
    unfold slot
    rw [e, e']
  · rfl

theorem gather_p_in {h : List Nat} (hn : h.Nodup) {C : Nat} (hC : C / 4 ∈ h) (X : State) (s : ℝ) :
    gather 1 h (moved X C s).p = shiftP (gather 1 h X.p) (slot 4 h C) s := by
  unfold moved shiftP
  rw [slot_mod4, slot_div (by omega)]
  split
  · rfl
  · show gather 1 h (bump X.p _ s) = _
    rw [gather_bump_in (by omega) hn (by rw [Nat.div_one]; exact hC)]
    unfold slot
    rw [Nat.div_one, Nat.mod_one, Nat.one_mul, Nat.add_zero]

theorem gather_out {h : List Nat} {C : Nat} (hC : C / 4 ∉ h) (X : State) (s : ℝ) :
    gather 3 h (moved X C s).y = gather 3 h X.y ∧ gather 1 h (moved X C s).p = gather 1 h X.p := by
  unfold moved
  split
  · next hc =>
    have e : (3 * (C / 4) + C % 4) / 3 = C / 4 := by omega
    exact ⟨gather_bump_out (by omega) (by rw [e]; exact hC) _ _, rfl⟩
  · exact ⟨rfl, gather_bump_out (by omega) (by rw [Nat.div_one]; exact hC) _ _⟩

/-- The results, zero if there are none. -/
def outOf : Outcome ((Nat → ℝ) × (Nat → ℝ)) → (Nat → ℝ) × (Nat → ℝ)
  | .ok f => f
  | _ => (fun _ => 0, fun _ => 0)

/-- What one neighborhood contributes to forces and flows. -/
def hoodRates (K : Rates) (X : State) (h : List Nat) : (Nat → ℝ) × (Nat → ℝ) :=
  (spread 3 h (outOf (K h (gather 3 h X.y) (gather 1 h X.p))).1, spread 1 h (outOf (K h (gather 3 h X.y) (gather 1 h X.p))).2)

theorem rowOf_spread (h : List Nat) (f g : Nat → ℝ) (R : Nat) : rowOf (spread 3 h f, spread 1 h g) R =
    if R / 4 ∈ h then rowOf (f, g) (slot 4 h R) else 0 := by
  unfold rowOf spread
  rw [slot_mod4, slot_div (by omega)]
  by_cases hR : R % 4 < 3
  · have e : (3 * (R / 4) + R % 4) / 3 = R / 4 := by omega
    have e' : (3 * (R / 4) + R % 4) % 3 = R % 4 := by omega
    simp only [if_pos hR, e, e']
  · simp only [if_neg hR, Nat.div_one, Nat.mod_one, Nat.one_mul, Nat.add_zero]

/-- The entry of one neighborhood is the derivative of the force or flow in it, and these exist nearby. -/
theorem hood_derivative {B : Body} {X : State} {h : List Nat} (hn : h.Nodup) {f : (Nat → Num) × (Nat → Num)}
    (hf : coupledAd B h (gather 3 h X.y) (gather 1 h X.p) = some f) (R C : Nat) :
    (∀ᶠ s in 𝓝 (0 : ℝ), ∃ g, coupledRates B h (gather 3 h (moved X C s).y) (gather 1 h (moved X C s).p) = .ok g) ∧
    HasDerivAt (fun s => X.vol (R / 4) * rowOf (hoodRates (coupledRates B) (moved X C s) h) R) (adEntry (coupledAd B) X h R C) 0 := by
  have hfine := (coupledAd_parts hf 0).1
  by_cases hC : C / 4 ∈ h
  · obtain ⟨_, h1, h2⟩ := coupledAd_parts hf (slot 4 h C)
    have hev : ∀ᶠ s in 𝓝 (0 : ℝ), coupledRates B h (gather 3 h (moved X C s).y) (gather 1 h (moved X C s).p) =
        .ok (forceValue B h (shiftY (gather 3 h X.y) (slot 4 h C) s) (shiftP (gather 1 h X.p) (slot 4 h C) s),
          flowValue B h (shiftY (gather 3 h X.y) (slot 4 h C) s) (shiftP (gather 1 h X.p) (slot 4 h C) s)) := by
      filter_upwards [coupled_lifts (p := gather 1 h X.p) hfine (slot 4 h C)] with s hs
      rw [gather_y_in hn hC, gather_p_in hn hC]
      exact coupledRates_ok hs
    refine ⟨by filter_upwards [hev] with s hs; exact ⟨_, hs⟩, ?_⟩
    unfold adEntry
    by_cases hR : R / 4 ∈ h
    · rw [if_pos ⟨hR, hC⟩, hf]
      have key : HasDerivAt (fun s => rowOf (forceValue B h (shiftY (gather 3 h X.y) (slot 4 h C) s)
          (shiftP (gather 1 h X.p) (slot 4 h C) s), flowValue B h (shiftY (gather 3 h X.y) (slot 4 h C) s)
          (shiftP (gather 1 h X.p) (slot 4 h C) s)) (slot 4 h R)) ((joint f (slot 4 h R)).dx (slot 4 h C)) 0 := by
        unfold rowOf joint
        split
        · exact (h1 _).2
        · exact (h2 _).2
      have := key.const_mul (X.vol (R / 4))
      rw [mul_comm] at this
      refine this.congr_of_eventuallyEq ?_
      filter_upwards [hev] with s hs
      unfold hoodRates
      rw [rowOf_spread, if_pos hR, hs]
      rfl
    · rw [if_neg fun h => hR h.1]
      unfold hoodRates
      simp only [rowOf_spread, if_neg hR]
      exact hasDerivAt_const _ _
  · have e := fun s => gather_out hC X s
    refine ⟨Filter.Eventually.of_forall fun s => ⟨_, by rw [(e s).1, (e s).2]; exact coupledRates_ok hfine⟩, ?_⟩
    unfold adEntry hoodRates
    rw [if_neg fun h => hC h.2]
    simp only [(e _).1, (e _).2]
    exact hasDerivAt_const _ _

theorem totalRates_ok {K : Rates} {X : State} : ∀ {hs : List (List Nat)},
    (∀ h ∈ hs, ∃ g, K h (gather 3 h X.y) (gather 1 h X.p) = .ok g) →
    totalRates K X hs = .ok (fun r => (hs.map fun h => (hoodRates K X h).1 r).sum, fun r => (hs.map fun h => (hoodRates K X h).2 r).sum)
  | [], _ => by
    unfold totalRates
    rfl
  | h :: hs, hk => by
    obtain ⟨g, hg⟩ := hk h List.mem_cons_self
    unfold totalRates
    rw [hg, Outcome.ok_bind, totalRates_ok fun h hh => hk h (List.mem_cons_of_mem _ hh), Outcome.ok_bind]
    have e : hoodRates K X h = (spread 3 h g.1, spread 1 h g.2) := by
      unfold hoodRates
      rw [hg]
      rfl
    simp only [List.map_cons, List.sum_cons, e]

theorem rowOf_sum (hs : List (List Nat)) (F : List Nat → (Nat → ℝ) × (Nat → ℝ)) (R : Nat) :
    rowOf (fun r => (hs.map fun h => (F h).1 r).sum, fun r => (hs.map fun h => (F h).2 r).sum) R =
      (hs.map fun h => rowOf (F h) R).sum := by
  unfold rowOf
  split <;> rfl

end Verif.Porous
