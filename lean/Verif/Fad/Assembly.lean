import Verif.Fad.Lemmas
import Verif.Tangent.KindProps

/-! Assembly of the tangent from the neighborhoods. -/

noncomputable section

namespace Verif.Fad

open Verif Verif.Neigh Verif.Mech Verif.Tangent
open scoped Classical Topology

theorem writeAll_ok {n : Nat} {f : Nat → Num} {vol : Nat → ℝ} {S S' : Scratch} (h : writeAll n f vol S = .ok S') :
    ∀ r < n, ∀ c < n, S'.val r c = some ((f r).dx c * vol (r / 3)) := by
  unfold writeAll at h
  obtain ⟨_, hv⟩ := fold_cells (fun r c => (f r).dx c * vol (r / 3)) (fun row r c => r = row ∧ c < n) (by
    intro S row S' hs
    obtain ⟨d, v⟩ := fold_cells (fun r c => (f r).dx c * vol (r / 3)) (fun col r c => r = row ∧ c = col) (by
      intro S col S' hs
      obtain ⟨w1, w2⟩ := write_ok hs
      refine ⟨w1, fun r c => ?_⟩
      rw [w2]
      by_cases hc : r = row ∧ c = col
      · rw [if_pos hc, if_pos hc, hc.1, hc.2]
      · rw [if_neg hc, if_neg hc]) _ _ _ hs
    refine ⟨d, fun r c => ?_⟩
    rw [v]
    have : (∃ a ∈ List.range n, r = row ∧ c = a) ↔ (r = row ∧ c < n) := by
      constructor
      · rintro ⟨a, ha, h1, rfl⟩; exact ⟨h1, List.mem_range.1 ha⟩
      · rintro ⟨h1, h2⟩; exact ⟨c, List.mem_range.2 h2, h1, rfl⟩
    by_cases hc : r = row ∧ c < n
    · rw [if_pos hc, if_pos (this.2 hc)]
    · rw [if_neg hc, if_neg (fun h => hc (this.1 h))]) _ _ _ h
  intro r hr c hc
  rw [hv, if_pos ⟨r, List.mem_range.2 hr, rfl, hc⟩]

theorem writeAll_defined {n : Nat} (f : Nat → Num) (vol : Nat → ℝ) (S : Scratch) (h : n ≤ S.dim) :
    ∃ S', writeAll n f vol S = .ok S' := by
  unfold writeAll
  obtain ⟨S', h1, _⟩ := fold_defined (f := fun S row =>
    (List.range n).foldlM (fun S col => S.write row col ((f row).dx col * vol (row / 3))) S) S.dim (List.range n) (by
      intro S1 row hr hS
      refine fold_defined S.dim (List.range n) ?_ S1 hS
      intro S2 col hc hS2
      refine ⟨_, if_pos ⟨?_, ?_⟩, hS2⟩
      · rw [hS2]; exact Nat.lt_of_lt_of_le (List.mem_range.1 hr) h
      · rw [hS2]; exact Nat.lt_of_lt_of_le (List.mem_range.1 hc) h) S rfl
  exact ⟨S', h1⟩

theorem adLocal_ok {A : AdKernel} {F : Fields} {gids : List Nat} {S : Scratch} {r : Scratch × (Nat → Nat → ℝ)}
    (h : adLocal A F gids S = .ok r) : ∃ f, A gids (gather 3 gids F.y) = some f ∧
    ∀ i < 3 * gids.length, ∀ j < 3 * gids.length, r.2 i j = (f i).dx j * gather 1 gids F.vol (i / 3) := by
  unfold adLocal at h
  obtain ⟨_, _, h⟩ := Outcome.bind_eq_ok.1 h
  cases hA : A gids (gather 3 gids F.y) with
  | none => rw [hA] at h; cases h
  | some f =>
    rw [hA] at h
    simp only at h
    obtain ⟨S1, h1, h⟩ := Outcome.bind_eq_ok.1 h
    obtain ⟨L, h2, h⟩ := Outcome.bind_eq_ok.1 h
    rw [← Outcome.ok.inj h]
    obtain ⟨L', e, hL⟩ := entries_ok (writeAll_ok h1)
    rw [e] at h2
    rw [← Outcome.ok.inj h2]
    exact ⟨f, rfl, hL⟩

theorem adLocal_defined {A : AdKernel} {F : Fields} {gids : List Nat} (S : Scratch) {f : Nat → Num}
    (hs : 1 < gids.length) (h : A gids (gather 3 gids F.y) = some f) : ∃ r, adLocal A F gids S = .ok r := by
  obtain ⟨S1, h1⟩ := writeAll_defined f (gather 1 gids F.vol) (S.fit (3 * gids.length)) (fit_dim _ _)
  obtain ⟨L, h2, _⟩ := entries_ok (writeAll_ok h1)
  refine ⟨(S1, L), ?_⟩
  unfold adLocal
  rw [bondMap_ok hs, Outcome.ok_bind, h]
  simp only
  rw [h1, Outcome.ok_bind, h2, Outcome.ok_bind]

/-- The entry that one neighborhood contributes. -/
def adEntry (A : AdKernel) (F : Fields) (h : List Nat) (R C : Nat) : ℝ :=
  if R / 3 ∈ h ∧ C / 3 ∈ h then
    match A h (gather 3 h F.y) with
    | some f => (f (slot 3 h R)).dx (slot 3 h C) * F.vol (R / 3)
    | none => 0
  else 0

theorem adPoint_ok {kind : Kind} {A : AdKernel} {F : Fields} {rows : Nat → Prop} {s s' : Scratch × Sparse} {h : List Nat}
    (hn : h.Nodup) (hs : adPoint kind A F rows s h = .ok s') : (∃ f, A h (gather 3 h F.y) = some f) ∧
    s'.2.pattern = s.2.pattern ∧ ∀ R C, s'.2.val R C =
      s.2.val R C + if Kept kind R C then adEntry A F h R C else 0 := by
  unfold adPoint at hs
  obtain ⟨SL, h1, hs⟩ := Outcome.bind_eq_ok.1 hs
  obtain ⟨M, h2, hs⟩ := Outcome.bind_eq_ok.1 hs
  cases hs
  obtain ⟨f, hf, hL⟩ := adLocal_ok h1
  refine ⟨⟨f, hf⟩, ?_⟩
  have key : ∀ R C, R / 3 ∈ h → C / 3 ∈ h → SL.2 (slot 3 h R) (slot 3 h C) = adEntry A F h R C := by
    intro R C hR hC
    rw [hL _ (slot_lt (by omega) hR) _ (slot_lt (by omega) hC), slot_div (by omega), gather_one (List.getElem?_idxOf hR)]
    unfold adEntry
    rw [if_pos ⟨hR, hC⟩, hf]
  cases kind with
  | full =>
    obtain ⟨e, v⟩ := addValues_ok (dofIds_nodup hn) h2
    refine ⟨e, fun R C => ?_⟩
    rw [if_pos (show Kept .full R C from trivial)]
    show M.val R C = _
    rw [v]
    congr 1
    by_cases hc : R / 3 ∈ h ∧ C / 3 ∈ h
    · rw [if_pos ⟨mem_dofIds.2 ⟨by omega, hc.1⟩, mem_dofIds.2 ⟨by omega, hc.2⟩⟩,
        idxOf_dofIds (by omega) hn hc.1, idxOf_dofIds (by omega) hn hc.2]
      exact key R C hc.1 hc.2
    · rw [if_neg, adEntry, if_neg hc]
      rintro ⟨a, b⟩
      exact hc ⟨(mem_dofIds.1 a).2, (mem_dofIds.1 b).2⟩
  | blockDiagonal =>
    obtain ⟨e, v⟩ := addBlockDiagonalValues_ok hn h2
    refine ⟨e, fun R C => ?_⟩
    show M.val R C = _
    rw [v]
    congr 1
    by_cases hk : C / 3 = R / 3
    · rw [if_pos (show Kept .blockDiagonal R C from hk)]
      by_cases hc : R / 3 ∈ h
      · have hc' : C / 3 ∈ h := hk ▸ hc
        rw [if_pos ⟨mem_dofIds.2 ⟨by omega, hc⟩, hk⟩, idxOf_dofIds (by omega) hn hc, idxOf_dofIds (by omega) hn hc']
        exact key R C hc hc'
      · have n1 : ¬ (R / 3 ∈ h ∧ C / 3 ∈ h) := fun h => hc h.1
        have n2 : ¬ (R ∈ dofIds 3 h ∧ C / 3 = R / 3) := fun h => hc (mem_dofIds.1 h.1).2
        rw [adEntry, if_neg n1, if_neg n2]
    · rw [if_neg (show ¬ Kept .blockDiagonal R C from hk), if_neg (fun h => hk h.2)]

/-- What the loops over points and processors make of a property of one pass. -/
theorem adTangent_ok {kind : Kind} {A : AdKernel} {F : Fields} {S : Scratch} : ∀ {parts : List Part}, (∀ p ∈ parts, p.Valid) →
    (∀ h ∈ allHoods parts, h.Nodup) → ∀ {M M' : Sparse}, adTangent kind A F S (parts.map Part.proc) M = .ok M' →
    (∀ h ∈ allHoods parts, ∃ f, A h (gather 3 h F.y) = some f) ∧
    ∀ R C, M'.val R C = M.val R C + ((allHoods parts).map fun h => if Kept kind R C then adEntry A F h R C else 0).sum
  | [], _, _, M, M', h => by
    cases h
    simp [allHoods]
  | p :: parts, hv, hn, M, M', h => by
    rw [List.map_cons] at h
    unfold adTangent at h
    obtain ⟨M1, h1, h⟩ := Outcome.bind_eq_ok.1 h
    unfold adOne at h1
    rw [Part.hoods_ok (hv p (List.mem_cons_self ..)), Outcome.ok_bind] at h1
    obtain ⟨s, h2, h1⟩ := Outcome.bind_eq_ok.1 h1
    cases h1
    have mem1 : ∀ h ∈ p.hoods, h ∈ allHoods (p :: parts) := fun h hh => List.mem_flatMap.2 ⟨p, List.mem_cons_self .., hh⟩
    have mem2 : ∀ h ∈ allHoods parts, h ∈ allHoods (p :: parts) := by
      intro h hh
      obtain ⟨q, hq, hh⟩ := List.mem_flatMap.1 hh
      exact List.mem_flatMap.2 ⟨q, List.mem_cons_of_mem _ hq, hh⟩
    have some1 : ∀ (hs : List (List Nat)) (s s' : Scratch × Sparse), (∀ h ∈ hs, h.Nodup) →
        hs.foldlM (adPoint kind A F (p.proc.rows 3)) s = .ok s' → ∀ h ∈ hs, ∃ f, A h (gather 3 h F.y) = some f := by
      intro hs
      induction hs with
      | nil => intro _ _ _ _ h hh; cases hh
      | cons g hs ih =>
        intro s s' hn e h hh
        obtain ⟨s1, e1, e⟩ := BC.foldlM_cons_ok.1 e
        rcases List.mem_cons.1 hh with rfl | hh
        · exact (adPoint_ok (hn h List.mem_cons_self) e1).1
        · exact ih s1 s' (fun h hh => hn h (List.mem_cons_of_mem _ hh)) e h hh
    obtain ⟨a1, a2⟩ := adTangent_ok (fun q hq => hv q (List.mem_cons_of_mem _ hq)) (fun h hh => hn h (mem2 h hh)) h
    constructor
    · intro g hg
      obtain ⟨q, hq, hgq⟩ := List.mem_flatMap.1 hg
      rcases List.mem_cons.1 hq with rfl | hq
      · exact some1 _ _ _ (fun h hh => hn h (mem1 h hh)) h2 g hgq
      · exact a1 g (List.mem_flatMap.2 ⟨q, hq, hgq⟩)
    · intro R C
      have e1 := fold_points (R := R) (C := C) (g := fun h => if Kept kind R C then adEntry A F h R C else 0)
        (fun h hh s s' e => (adPoint_ok (hn h (mem1 h hh)) e).2.2 R C) _ _ h2
      rw [a2, e1]
      unfold allHoods
      rw [List.flatMap_cons, List.map_append, List.sum_append]
      ring

/-- No point was without neighbors. -/
theorem adTangent_joined {kind : Kind} {A : AdKernel} {F : Fields} {S : Scratch} : ∀ {parts : List Part}, (∀ p ∈ parts, p.Valid) →
    ∀ {M M' : Sparse}, adTangent kind A F S (parts.map Part.proc) M = .ok M' → ∀ h ∈ allHoods parts, 1 < h.length
  | [], _, _, _, _, h, hh => by cases hh
  | p :: parts, hv, M, M', h, g, hg => by
    rw [List.map_cons] at h
    unfold adTangent at h
    obtain ⟨M1, h1, h⟩ := Outcome.bind_eq_ok.1 h
    unfold adOne at h1
    rw [Part.hoods_ok (hv p (List.mem_cons_self ..)), Outcome.ok_bind] at h1
    obtain ⟨s, h2, h1⟩ := Outcome.bind_eq_ok.1 h1
    obtain ⟨q, hq, hgq⟩ := List.mem_flatMap.1 hg
    rcases List.mem_cons.1 hq with rfl | hq
    · obtain ⟨t, t', e⟩ := fold_reaches h2 g hgq
      unfold adPoint adLocal at e
      obtain ⟨_, e, _⟩ := Outcome.bind_eq_ok.1 e
      obtain ⟨_, e, _⟩ := Outcome.bind_eq_ok.1 e
      exact bondMap_eq_ok e
    · exact adTangent_joined (fun q hq => hv q (List.mem_cons_of_mem _ hq)) h g (List.mem_flatMap.2 ⟨q, hq, hgq⟩)

/-- The tangent can be assembled if the local matrices can be computed. -/
theorem adTangent_full {A : AdKernel} {F : Fields} (S : Scratch) {parts : List Part} (hv : ∀ p ∈ parts, p.Valid)
    (hn : ∀ h ∈ allHoods parts, h.Nodup) (hj : ∀ h ∈ allHoods parts, 1 < h.length)
    (hA : ∀ h ∈ allHoods parts, ∃ f, A h (gather 3 h F.y) = some f) :
    ∃ R M, allocate 3 (parts.map Part.proc) = .ok R ∧ adTangent .full A F S (parts.map Part.proc) (Sparse.zero R) = .ok M := by
  obtain ⟨R, hR, hm⟩ := allocate_ok 3 parts hv
  have step : ∀ ps : List Part, (∀ p ∈ ps, p ∈ parts) → ∀ M : Sparse, M.pattern = R →
      ∃ M', adTangent .full A F S (ps.map Part.proc) M = .ok M' := by
    intro ps
    induction ps with
    | nil => intro _ M _; exact ⟨M, rfl⟩
    | cons p ps ih =>
      intro hps M hM
      have hp := hps p (List.mem_cons_self ..)
      obtain ⟨s, h1, e1⟩ := fold_points_defined (pat := R) (hs := p.hoods)
        (f := adPoint .full A F (p.proc.rows 3)) (by
          intro h hh s es
          have hall : h ∈ allHoods parts := List.mem_flatMap.2 ⟨p, hp, hh⟩
          obtain ⟨f, hf⟩ := hA h hall
          obtain ⟨r, hr⟩ := adLocal_defined s.1 (hj h hall) hf
          obtain ⟨A', hA'⟩ := addValues_defined (rows := p.proc.rows 3) (idx := dofIds 3 h) (L := r.2)
            (A := s.2)
            (by
              intro c hc
              obtain ⟨q, ns, hq, rfl⟩ := mem_hoods.1 hh
              obtain ⟨hlt, _⟩ := List.getElem?_eq_some_iff.1 hq
              have hlt' := Nat.lt_of_lt_of_le hlt (hv p hp).1
              have hd : 3 * p.overlap[q] / 3 = p.overlap[q] := Nat.mul_div_cancel_left _ (by omega)
              refine ⟨3 * p.overlap[q], ?_, ?_⟩
              · unfold Proc.rows
                rw [hd]
                exact List.mem_take_iff_getElem.2 ⟨q, lt_min hlt hlt', rfl⟩
              · rw [es, hm]
                refine ⟨_, hall, mem_dofIds.2 ⟨by omega, ?_⟩, hc⟩
                rw [hd]
                exact mem_hood.2 (.inl (List.getElem?_eq_getElem hlt')))
            (by
              intro r hr c hc
              rw [es, hm]
              exact ⟨h, hall, hr, hc⟩)
          refine ⟨(r.1, A'), ?_, ?_⟩
          · unfold adPoint
            rw [hr, Outcome.ok_bind]
            show (addValues (p.proc.rows 3) (dofIds 3 h) r.2 s.2 >>= _) = _
            rw [hA', Outcome.ok_bind]
          · exact (addValues_ok (dofIds_nodup (hn h hall)) hA').1.trans es) (S, M) hM
      obtain ⟨M', h2⟩ := ih (fun q hq => hps q (List.mem_cons_of_mem _ hq)) s.2 e1
      refine ⟨M', ?_⟩
      rw [List.map_cons]
      unfold adTangent adOne
      rw [Part.hoods_ok (hv p hp), Outcome.ok_bind, h1, Outcome.ok_bind, Outcome.ok_bind]
      exact h2
  obtain ⟨M, hM⟩ := step parts (fun _ h => h) (Sparse.zero R) rfl
  exact ⟨R, M, hR, hM⟩

/-- The same for the block diagonal. -/
theorem adTangent_block {A : AdKernel} {F : Fields} (S : Scratch) {parts : List Part} (hv : ∀ p ∈ parts, p.Valid)
    (hn : ∀ h ∈ allHoods parts, h.Nodup) (hj : ∀ h ∈ allHoods parts, 1 < h.length)
    (hA : ∀ h ∈ allHoods parts, ∃ f, A h (gather 3 h F.y) = some f)
    {gids : List Nat} (hg : ∀ h ∈ allHoods parts, ∀ g ∈ h, g ∈ gids) :
    ∃ M, adTangent .blockDiagonal A F S (parts.map Part.proc) (Sparse.zero (allocateBlockDiagonal gids)) = .ok M := by
  have step : ∀ ps : List Part, (∀ p ∈ ps, p ∈ parts) → ∀ M : Sparse, M.pattern = allocateBlockDiagonal gids →
      ∃ M', adTangent .blockDiagonal A F S (ps.map Part.proc) M = .ok M' := by
    intro ps
    induction ps with
    | nil => intro _ M _; exact ⟨M, rfl⟩
    | cons p ps ih =>
      intro hps M hM
      have hp := hps p (List.mem_cons_self ..)
      obtain ⟨s, h1, e1⟩ := fold_points_defined (pat := allocateBlockDiagonal gids) (hs := p.hoods)
        (f := adPoint .blockDiagonal A F (p.proc.rows 3)) (by
          intro h hh s es
          have hall : h ∈ allHoods parts := List.mem_flatMap.2 ⟨p, hp, hh⟩
          obtain ⟨f, hf⟩ := hA h hall
          obtain ⟨r, hr⟩ := adLocal_defined s.1 (hj h hall) hf
          obtain ⟨A', hA'⟩ := addBlockDiagonalValues_defined (L := r.2) (hn h hall) (hg h hall) es
          refine ⟨(r.1, A'), ?_, (addBlockDiagonalValues_ok (hn h hall) hA').1.trans es⟩
          unfold adPoint
          rw [hr, Outcome.ok_bind]
          show (addBlockDiagonalValues (dofIds 3 h) r.2 s.2 >>= _) = _
          rw [hA', Outcome.ok_bind]) (S, M) hM
      obtain ⟨M', h2⟩ := ih (fun q hq => hps q (List.mem_cons_of_mem _ hq)) s.2 e1
      refine ⟨M', ?_⟩
      rw [List.map_cons]
      unfold adTangent adOne
      rw [Part.hoods_ok (hv p hp), Outcome.ok_bind, h1, Outcome.ok_bind, Outcome.ok_bind]
      exact h2
  exact step parts (fun _ h => h) _ rfl

/-- The entry of one neighborhood is the derivative of the force it exerts, and this force exists nearby. -/
theorem hood_derivative {S : Solid} {F : Fields} {h : List Nat} (hn : h.Nodup) {f : Nat → Num}
    (hf : elasticAd S h (gather 3 h F.y) = some f) (R C : Nat) :
    (∀ᶠ s in 𝓝 (0 : ℝ), ∃ g, elasticKernel S h (gather 3 h (bump F.y C s)) (gather 3 h F.v) = .ok g) ∧
    HasDerivAt (fun s => F.vol (R / 3) * hoodForce (elasticKernel S) (bump F.y C s) F.v h R) (adEntry (elasticAd S) F h R C) 0 := by
  by_cases hC : C / 3 ∈ h
  · obtain ⟨h1, h2⟩ := elastic_lifts hf (slot 3 h C) (gather 3 h F.v)
    have hev : ∀ᶠ s in 𝓝 (0 : ℝ), elasticKernel S h (gather 3 h (bump F.y C s)) (gather 3 h F.v) =
        .ok (hoodValue S h (bump (gather 3 h F.y) (slot 3 h C) s)) := by
      filter_upwards [h1] with s hs
      rw [gather_bump_in (by omega) hn hC]
      exact hs
    refine ⟨by filter_upwards [hev] with s hs; exact ⟨_, hs⟩, ?_⟩
    unfold adEntry hoodForce
    by_cases hR : R / 3 ∈ h
    · rw [if_pos ⟨hR, hC⟩, hf]
      have := (h2 (slot 3 h R)).const_mul (F.vol (R / 3))
      rw [mul_comm] at this
      refine this.congr_of_eventuallyEq ?_
      filter_upwards [hev] with s hs
      rw [hs]
      simp only [spread, if_pos hR, out]
      rfl
    · rw [if_neg fun h => hR h.1]
      simp only [spread, if_neg hR]
      exact hasDerivAt_const _ _
  · have e : ∀ s, gather 3 h (bump F.y C s) = gather 3 h F.y := fun s => gather_bump_out (by omega) hC _ _
    obtain ⟨h1, _⟩ := elastic_lifts hf 0 (gather 3 h F.v)
    have h0 := h1.self_of_nhds
    have eb : bump (gather 3 h F.y) 0 0 = gather 3 h F.y := by simp [bump]
    rw [eb] at h0
    refine ⟨Filter.Eventually.of_forall fun s => ⟨_, by rw [e]; exact h0⟩, ?_⟩
    unfold adEntry hoodForce
    rw [if_neg fun h => hC h.2]
    simp only [e]
    exact hasDerivAt_const _ _

theorem internalForce_ok {K : Kernel} {Y V : Nat → ℝ} : ∀ {hs : List (List Nat)},
    (∀ h ∈ hs, ∃ g, K h (gather 3 h Y) (gather 3 h V) = .ok g) →
    internalForce K Y V hs = .ok fun r => (hs.map fun h => hoodForce K Y V h r).sum
  | [], _ => by
    unfold internalForce
    rfl
  | h :: hs, hk => by
    obtain ⟨g, hg⟩ := hk h List.mem_cons_self
    unfold internalForce
    rw [hg, Outcome.ok_bind, internalForce_ok fun h hh => hk h (List.mem_cons_of_mem _ hh), Outcome.ok_bind]
    congr 1
    funext r
    rw [List.map_cons, List.sum_cons]
    congr 1
    unfold hoodForce
    rw [hg]
    rfl

theorem sum_derivative {φ : List Nat → ℝ → ℝ} {d : List Nat → ℝ} {v : ℝ} : ∀ {hs : List (List Nat)},
    (∀ h ∈ hs, HasDerivAt (fun s => v * φ h s) (d h) 0) →
    HasDerivAt (fun s => v * (hs.map fun h => φ h s).sum) (hs.map d).sum 0
  | [], _ => by simpa using hasDerivAt_const (0 : ℝ) (0 : ℝ)
  | h :: hs, hd => by
    simp only [List.map_cons, List.sum_cons, mul_add]
    exact (hd h List.mem_cons_self).add (sum_derivative fun h hh => hd h (List.mem_cons_of_mem _ hh))

theorem eventually_all {P : List Nat → ℝ → Prop} : ∀ {hs : List (List Nat)}, (∀ h ∈ hs, ∀ᶠ s in 𝓝 (0 : ℝ), P h s) →
    ∀ᶠ s in 𝓝 (0 : ℝ), ∀ h ∈ hs, P h s
  | [], _ => by simp
  | h :: hs, hp => by
    filter_upwards [hp h List.mem_cons_self, eventually_all fun h hh => hp h (List.mem_cons_of_mem _ hh)] with s h1 h2 g hg
    rcases List.mem_cons.1 hg with rfl | hg
    · exact h1
    · exact h2 g hg

end Verif.Fad
