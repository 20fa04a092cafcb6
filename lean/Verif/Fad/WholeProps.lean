import Verif.Fad.SymProps

/-!
# C218: the forces from the neighborhoods are those of the blocks
-/

noncomputable section

namespace Verif.Fad

open Verif Verif.Neigh Verif.Mech Verif.Tangent Verif.Energy Verif.Lps
open scoped Classical Topology Matrix

theorem zipIdx_range {α : Type} (l : List Nat) (f : Nat × Nat → α) :
    l.zipIdx.map f = (List.range l.length).map fun t => f (l.getD t 0, t) := by
  apply List.ext_getElem
  · simp
  · intro i h1 h2
    have hi : i < l.length := by simpa using h1
    simp only [List.getElem_map, List.getElem_zipIdx, List.getElem_range, Nat.zero_add]
    rw [getD_lt hi]

theorem sum_range_list (n : Nat) (f : Nat → ℝ) : ((List.range n).map f).sum = ∑ q ∈ Finset.range n, f q := by
  induction n with
  | zero => simp
  | succ n ih => rw [List.range_succ, List.map_append, List.sum_append, ih, Finset.sum_range_succ]; simp

theorem hood_bonds (n : Nat) : bondsOf (hoodNbs n) = (List.range n).map fun t => ⟨0, t + 1, t⟩ := by
  have h := filter_bondsOf (hoodNbs n) (p := 0) rfl
  rw [filter_hood, zipIdx_range] at h
  rw [h]
  simp only [List.length_map, List.length_range]
  apply List.map_congr_left
  intro t ht
  have ht := List.mem_range.1 ht
  have e : ((List.range n).map (· + 1)).getD t 0 = t + 1 := by
    rw [getD_lt (by simpa using ht)]
    simp
  rw [e]
  simp [bondPos]

section part

variable {S : Solid} {P : Part} {Y : Nat → ℝ} {C : Config}

theorem hood_map (hv : P.Valid) {q : Nat} {ns : List Nat} (hq : P.nbs[q]? = some ns) :
    P.hood q ns = (q :: ns).map fun i => P.overlap.getD i 0 := by
  unfold Part.hood
  have hql : q < P.overlap.length := Nat.lt_of_lt_of_le (List.getElem?_eq_some_iff.1 hq).1 hv.1
  have hns : ∀ i ∈ q :: ns, i < P.overlap.length := by
    intro i hi
    rcases List.mem_cons.1 hi with rfl | hi
    · exact hql
    · exact hv.2 ns (List.mem_of_getElem? hq) i hi
  rw [← List.filterMap_eq_map]
  apply List.filterMap_congr
  intro i hi
  rw [List.getElem?_eq_getElem (hns i hi)]
  simp only [Function.comp_apply, Option.some.injEq]
  rw [getD_lt (hns i hi)]

variable (hv : P.Valid) (hC : S.Holds P Y C) {q : Nat} {ns : List Nat} (hq : P.nbs[q]? = some ns)

/-- The data of a bond, in the block and in the neighborhood. -/
structure Same (C H : Config) (b b' : Bond) : Prop where
  zeta : C.zeta b = H.zeta b'
  om : C.om b = H.om b'
  vi : C.v b.i = H.v b'.i
  vj : C.v b.j = H.v b'.j
  m : C.m b.i = H.m b'.i
  damage : C.damage b.b = H.damage b'.b
  yd : C.yd b = H.yd b'
  ext : C.ext b = H.ext b'

include hv hC hq in
theorem same_bond {t : Nat} (ht : t < ns.length) :
    Same C (S.hood (P.hood q ns) (gather 3 (P.hood q ns) Y)) ⟨q, ns.getD t 0, bondPos P.nbs q t⟩ ⟨0, t + 1, t⟩ := by
  have hl : (P.hood q ns).length = ns.length + 1 := by rw [hood_map hv hq]; simp
  have g0 : (P.hood q ns).getD 0 0 = P.overlap.getD q 0 := by rw [hood_map hv hq]; rfl
  have gt : (P.hood q ns).getD (t + 1) 0 = P.overlap.getD (ns.getD t 0) 0 := by
    rw [getD_lt (by omega)]
    simp only [hood_map hv hq, List.map_cons, List.getElem_cons_succ, List.getElem_map]
    rw [getD_lt ht]
  have hz : C.zeta ⟨q, ns.getD t 0, bondPos P.nbs q t⟩ =
      (S.hood (P.hood q ns) (gather 3 (P.hood q ns) Y)).zeta ⟨0, t + 1, t⟩ := by
    unfold Config.zeta
    simp only [hC.x, Solid.hood, g0, gt]
  have hyd : C.yd ⟨q, ns.getD t 0, bondPos P.nbs q t⟩ =
      (S.hood (P.hood q ns) (gather 3 (P.hood q ns) Y)).yd ⟨0, t + 1, t⟩ := by
    unfold Config.yd
    simp only [hC.y]
    show _ = comp (gather 3 (P.hood q ns) Y) (t + 1) - comp (gather 3 (P.hood q ns) Y) 0
    rw [comp_gather (by omega), comp_gather (by omega), g0, gt]
  refine ⟨hz, ?_, ?_, ?_, ?_, ?_, hyd, ?_⟩
  · unfold Config.om
    rw [hz, hC.omega, hC.horizon]
    rfl
  · show C.v q = S.v ((P.hood q ns).getD 0 0)
    rw [hC.v, g0]
  · show C.v (ns.getD t 0) = S.v ((P.hood q ns).getD (t + 1) 0)
    rw [hC.v, gt]
  · show C.m q = S.m ((P.hood q ns).getD 0 0)
    rw [hC.m, g0]
  · show C.damage (bondPos P.nbs q t) = S.damage ((P.hood q ns).getD 0 0) t
    rw [hC.damage q t ns hq ht, g0]
  · have hth : (S.hood (P.hood q ns) (gather 3 (P.hood q ns) Y)).thermal =
        S.thermal.map fun t => (t.1, fun i => t.2 ((P.hood q ns).getD i 0)) := rfl
    unfold Config.ext Config.dY
    rw [hth, hC.thermal, hz, hyd]
    cases S.thermal with
    | none => rfl
    | some a =>
      simp only [Option.map_some]
      rw [g0]

include hv hC hq in
theorem same_theta : theta' C P.nbs q = theta' (S.hood (P.hood q ns) (gather 3 (P.hood q ns) Y)) (hoodNbs ns.length) 0 := by
  unfold theta' bondsAt
  rw [filter_bondsOf P.nbs hq, zipIdx_range, filter_hood, hood_bonds, List.map_map, List.map_map]
  congr 1
  apply List.map_congr_left
  intro t ht
  have hs := same_bond hv hC hq (List.mem_range.1 ht)
  simp only [Function.comp_apply]
  unfold kap
  rw [hs.zeta, hs.om, hs.vj, hs.damage, hs.ext, hs.m]

include hv hC hq in
theorem same_force {t : Nat} (ht : t < ns.length) :
    (tension C S.K S.mu (theta' C P.nbs) ⟨q, ns.getD t 0, bondPos P.nbs q t⟩ / C.dY ⟨q, ns.getD t 0, bondPos P.nbs q t⟩) •
        C.yd ⟨q, ns.getD t 0, bondPos P.nbs q t⟩ =
      (tension (S.hood (P.hood q ns) (gather 3 (P.hood q ns) Y)) S.K S.mu
        (theta' (S.hood (P.hood q ns) (gather 3 (P.hood q ns) Y)) (hoodNbs ns.length)) ⟨0, t + 1, t⟩ /
        (S.hood (P.hood q ns) (gather 3 (P.hood q ns) Y)).dY ⟨0, t + 1, t⟩) •
        (S.hood (P.hood q ns) (gather 3 (P.hood q ns) Y)).yd ⟨0, t + 1, t⟩ := by
  have hs := same_bond hv hC hq ht
  unfold tension Config.dY
  simp only
  rw [same_theta hv hC hq, hs.zeta, hs.om, hs.damage, hs.ext, hs.yd]
  have hm := hs.m
  simp only at hm
  rw [hm]

include hv hq in
theorem hood_len : (P.hood q ns).length - 1 = ns.length := by
  rw [hood_map hv hq]
  simp

include hv hC hq in
/-- The force from one neighborhood on a point of the part. -/
theorem hood_part (hno : P.overlap.Nodup) (hn : (P.hood q ns).Nodup)
    (hb : ∀ b ∈ bondsOf P.nbs, C.m b.i ≠ 0 ∧ C.dY b ≠ 0) (V : Nat → ℝ) {k : Nat} (hk : k < P.overlap.length) (c : Fin 3) :
    (∃ g, elasticKernel S (P.hood q ns) (gather 3 (P.hood q ns) Y) (gather 3 (P.hood q ns) V) = .ok g) ∧
    hoodForce (elasticKernel S) Y V (P.hood q ns) (3 * P.overlap.getD k 0 + c) =
      (((bondsOf P.nbs).filter fun b => b.i = q).map fun b => pull (selfVol C) (nbrVol C) k
        (b, (tension C S.K S.mu (theta' C P.nbs) b / C.dY b) • C.yd b) c).sum := by
  have hlen := hood_len hv hq
  have hmem : ∀ t < ns.length, (⟨q, ns.getD t 0, bondPos P.nbs q t⟩ : Bond) ∈ bondsOf P.nbs := by
    intro t ht
    have : (⟨q, ns.getD t 0, bondPos P.nbs q t⟩ : Bond) ∈ (bondsOf P.nbs).filter fun b => b.i = q := by
      rw [filter_bondsOf P.nbs hq, zipIdx_range]
      exact List.mem_map.2 ⟨t, List.mem_range.2 ht, rfl⟩
    exact (List.mem_filter.1 this).1
  have hker := elasticKernel_ok (S := S) (gids := P.hood q ns) (y := gather 3 (P.hood q ns) Y) (gather 3 (P.hood q ns) V) (by
    rw [hlen, hood_bonds]
    intro b hb'
    obtain ⟨t, ht, rfl⟩ := List.mem_map.1 hb'
    have hs := same_bond hv hC hq (List.mem_range.1 ht)
    obtain ⟨h1, h2⟩ := hb _ (hmem t (List.mem_range.1 ht))
    refine ⟨?_, ?_⟩
    · rw [← hs.m]; exact h1
    · unfold Config.dY at h2 ⊢
      rw [← hs.yd]; exact h2)
  refine ⟨⟨_, hker⟩, ?_⟩
  have e1 : (3 * P.overlap.getD k 0 + (c : Nat)) / 3 = P.overlap.getD k 0 := by have := c.isLt; omega
  have e2 : (3 * P.overlap.getD k 0 + (c : Nat)) % 3 = c := by have := c.isLt; omega
  have hql : q < P.overlap.length := Nat.lt_of_lt_of_le (List.getElem?_eq_some_iff.1 hq).1 hv.1
  have inj : ∀ i < P.overlap.length, (P.overlap.getD i 0 = P.overlap.getD k 0 ↔ i = k) := by
    intro i hi
    rw [getD_lt hi, getD_lt hk]
    exact hno.getElem_inj_iff
  have hl : (P.hood q ns).length = ns.length + 1 := by rw [hood_map hv hq]; simp
  have g0 : (P.hood q ns)[0]'(by omega) = P.overlap.getD q 0 := by simp [hood_map hv hq]
  have gt : ∀ (t : Nat) (ht : t < ns.length), (P.hood q ns)[t + 1]'(by omega) = P.overlap.getD (ns.getD t 0) 0 := by
    intro t ht
    simp only [hood_map hv hq, List.map_cons, List.getElem_cons_succ, List.getElem_map]
    rw [getD_lt ht]
  have hnsl : ∀ t < ns.length, ns.getD t 0 < P.overlap.length := by
    intro t ht
    rw [getD_lt ht]
    exact hv.2 ns (List.mem_of_getElem? hq) _ (List.getElem_mem _)
  unfold hoodForce spread
  rw [e1, e2, hker, filter_bondsOf P.nbs hq, zipIdx_range, List.map_map]
  by_cases hm : P.overlap.getD k 0 ∈ P.hood q ns
  · rw [if_pos hm]
    have hi := List.idxOf_lt_length_iff.2 hm
    have hidx : ∀ (p : Nat) (hp : p < (P.hood q ns).length), ((P.hood q ns)[p] = P.overlap.getD k 0 ↔
        p = (P.hood q ns).idxOf (P.overlap.getD k 0)) := by
      intro p hp
      constructor
      · intro e
        rw [← e]
        exact (hn.idxOf_getElem p hp).symm
      · intro e
        subst e
        exact List.getElem_idxOf hi
    unfold out hoodValue
    simp only
    have e3 : (3 * (P.hood q ns).idxOf (P.overlap.getD k 0) + (c : Nat)) / 3 = (P.hood q ns).idxOf (P.overlap.getD k 0) := by
      have := c.isLt; omega
    have e4 : (3 * (P.hood q ns).idxOf (P.overlap.getD k 0) + (c : Nat)) % 3 = c := by have := c.isLt; omega
    simp only [e3, e4]
    rw [hlen, hood_bonds, List.map_map]
    have split : ∀ (l : List Nat) (f : Nat → V3), (l.map f).sum c = (l.map fun t => f t c).sum := by
      intro l f
      induction l with
      | nil => rfl
      | cons a l ih => simp only [List.map_cons, List.sum_cons, Pi.add_apply]; rw [ih]
    rw [split]
    congr 1
    apply List.map_congr_left
    intro t ht
    have ht := List.mem_range.1 ht
    have hs := same_bond hv hC hq ht
    have hf := same_force hv hC hq ht
    simp only [Function.comp_apply]
    rw [hf]
    unfold pull selfVol nbrVol
    have hvi := hs.vi
    have hvj := hs.vj
    simp only at hvi hvj
    simp only [hvi, hvj]
    have i1 : (0 = (P.hood q ns).idxOf (P.overlap.getD k 0)) ↔ q = k := by
      rw [← hidx 0 (by omega), g0]
      exact inj q hql
    have i2 : (t + 1 = (P.hood q ns).idxOf (P.overlap.getD k 0)) ↔ ns.getD t 0 = k := by
      rw [← hidx (t + 1) (by omega), gt t ht]
      exact inj _ (hnsl t ht)
    simp only [i1, i2]
  · rw [if_neg hm]
    symm
    apply List.sum_eq_zero
    intro x hx
    obtain ⟨t, ht, rfl⟩ := List.mem_map.1 hx
    have ht := List.mem_range.1 ht
    have n1 : q ≠ k := by
      rintro rfl
      apply hm
      rw [← g0]
      exact List.getElem_mem _
    have n2 : ns.getD t 0 ≠ k := by
      intro e
      apply hm
      rw [← e, ← gt t ht]
      exact List.getElem_mem _
    simp only [Function.comp_apply]
    unfold pull
    simp only [if_neg n1, if_neg n2]
    simp

end part

theorem hoods_range (P : Part) (f : List Nat → ℝ) :
    (P.hoods.map f).sum = ((List.range P.nbs.length).map fun q => f (P.hood q (P.nbs.getD q []))).sum := by
  unfold Part.hoods
  rw [List.map_map]
  congr 1
  apply List.ext_getElem
  · simp
  · intro i h1 h2
    have hi : i < P.nbs.length := by simpa using h1
    simp [hi]

/-- The forces of one part. -/
theorem part_force {S : Solid} {P : Part} {Y V : Nat → ℝ} {C : Config} (hv : P.Valid) (hC : S.Holds P Y C) (hno : P.overlap.Nodup)
    (hn : ∀ h ∈ P.hoods, h.Nodup) {th theta : Nat → ℝ} {F : Nat → V3}
    (h : elasticMaterial C S.K S.mu P.nbs.length (encode P.nbs) th = .ok (theta, F)) :
    (∀ g ∈ P.hoods, ∃ f, elasticKernel S g (gather 3 g Y) (gather 3 g V) = .ok f) ∧
    ∀ r, (P.hoods.map fun g => hoodForce (elasticKernel S) Y V g r).sum = spread 3 P.overlap (flat F) r := by
  have hb := (elastic_parts h).2
  have hF := (elastic_at h).2
  constructor
  · intro g hg
    obtain ⟨q, ns, hq, rfl⟩ := mem_hoods.1 hg
    have hql : q < P.overlap.length := Nat.lt_of_lt_of_le (List.getElem?_eq_some_iff.1 hq).1 hv.1
    exact (hood_part hv hC hq hno (hn _ hg) hb V hql 0).1
  · intro r
    unfold spread
    by_cases hr : r / 3 ∈ P.overlap
    · rw [if_pos hr]
      have hi := List.idxOf_lt_length_iff.2 hr
      have hg : P.overlap.getD (P.overlap.idxOf (r / 3)) 0 = r / 3 := by
        rw [getD_lt hi]
        exact List.getElem_idxOf hi
      generalize P.overlap.idxOf (r / 3) = k at hi hg
      have hre : r = 3 * P.overlap.getD k 0 + ((⟨r % 3, Nat.mod_lt _ (by omega)⟩ : Fin 3) : Nat) := by
        rw [hg]
        simp only
        omega
      unfold flat
      have e1 : (3 * k + r % 3) / 3 = k := by omega
      have e2 : (3 * k + r % 3) % 3 = r % 3 := by omega
      simp only [e1, e2]
      rw [hF k]
      have split : ∀ (l : List Bond) (f : Bond → V3) (c : Fin 3), (l.map f).sum c = (l.map fun t => f t c).sum := by
        intro l f c
        induction l with
        | nil => rfl
        | cons a l ih => simp only [List.map_cons, List.sum_cons, Pi.add_apply]; rw [ih]
      rw [split]
      have hp := sum_partition (bondsOf P.nbs) P.nbs.length (fun b hb' => by
        obtain ⟨ns, h1, _⟩ := mem_bondsOf hb'
        exact (List.getElem?_eq_some_iff.1 h1).1) (fun b => pull (selfVol C) (nbrVol C) k
        (b, (tension C S.K S.mu (theta' C P.nbs) b / C.dY b) • C.yd b) ⟨r % 3, Nat.mod_lt _ (by omega)⟩) (fun _ => 1)
      simp only [mul_one] at hp
      rw [← hp, hoods_range, sum_range_list]
      apply Finset.sum_congr rfl
      intro q hq
      have hq := Finset.mem_range.1 hq
      have hq' : P.nbs[q]? = some (P.nbs.getD q []) := by
        rw [List.getElem?_eq_getElem hq]
        simp [List.getD_eq_getElem?_getD, hq]
      have hh : P.hood q (P.nbs.getD q []) ∈ P.hoods := mem_hoods.2 ⟨q, _, hq', rfl⟩
      have := (hood_part hv hC hq' hno (hn _ hh) hb V hi ⟨r % 3, Nat.mod_lt _ (by omega)⟩).2
      rw [← hre] at this
      exact this
    · rw [if_neg hr]
      apply List.sum_eq_zero
      intro x hx
      obtain ⟨g, hg, rfl⟩ := List.mem_map.1 hx
      unfold hoodForce spread
      rw [if_neg]
      intro hm
      obtain ⟨q, ns, hq, rfl⟩ := mem_hoods.1 hg
      rcases mem_hood.1 hm with h1 | ⟨i, _, h1⟩
      · exact hr (List.mem_of_getElem? h1)
      · exact hr (List.mem_of_getElem? h1)

/-- **C218** The force that is differentiated, namely the sum of the forces from the neighborhoods, each evaluated on its own, is
the force the material computes for the mesh: on each processor it is evaluated once for all points, and the forces that several
processors have for the same point are added. -/
theorem C218_same_force (S : Solid) (Y V : Nat → ℝ) (Cs : Part → Config) (Fs : Part → Nat → V3) : ∀ (parts : List Part),
    (∀ p ∈ parts, p.Valid) → (∀ p ∈ parts, p.overlap.Nodup) → (∀ h ∈ allHoods parts, h.Nodup) → (∀ p ∈ parts, S.Holds p Y (Cs p)) →
    (∀ p ∈ parts, ∃ th theta, elasticMaterial (Cs p) S.K S.mu p.nbs.length (encode p.nbs) th = .ok (theta, Fs p)) →
    ∃ f, internalForce (elasticKernel S) Y V (allHoods parts) = .ok f ∧
      ∀ r, f r = (parts.map fun p => spread 3 p.overlap (flat (Fs p)) r).sum := by
  intro parts hv hno hn hC hF
  have hex : ∀ p ∈ parts, (∀ g ∈ p.hoods, ∃ f, elasticKernel S g (gather 3 g Y) (gather 3 g V) = .ok f) ∧
      ∀ r, (p.hoods.map fun g => hoodForce (elasticKernel S) Y V g r).sum = spread 3 p.overlap (flat (Fs p)) r := by
    intro p hp
    obtain ⟨th, theta, h⟩ := hF p hp
    exact part_force (V := V) (hv p hp) (hC p hp) (hno p hp) (fun g hg => hn g (List.mem_flatMap.2 ⟨p, hp, hg⟩)) h
  refine ⟨_, internalForce_ok (K := elasticKernel S) (Y := Y) (V := V) (hs := allHoods parts) ?_, ?_⟩
  · intro g hg
    obtain ⟨p, hp, hg⟩ := List.mem_flatMap.1 hg
    exact (hex p hp).1 g hg
  · intro r
    have : ∀ ps : List Part, (∀ p ∈ ps, p ∈ parts) → ((allHoods ps).map fun g => hoodForce (elasticKernel S) Y V g r).sum =
        (ps.map fun p => spread 3 p.overlap (flat (Fs p)) r).sum := by
      intro ps
      induction ps with
      | nil => intro _; rfl
      | cons p ps ih =>
        intro hps
        unfold allHoods at *
        rw [List.flatMap_cons, List.map_append, List.sum_append, List.map_cons, List.sum_cons,
          ih fun q hq => hps q (List.mem_cons_of_mem _ hq), (hex p (hps p List.mem_cons_self)).2 r]
    exact this parts fun _ h => h

/-- The stretched bar as the processor holds it. -/
def barPart (s : ℝ) : Config where
  x i := bar.x ([0, 1].getD i 0)
  y i := comp (stretched s).y ([0, 1].getD i 0)
  v _ := 1
  m _ := 1
  damage _ := 0
  omega := fun _ _ => 1
  horizon := 2
  thermal := none

example : (∀ p ∈ Tangent.pair, p.overlap.Nodup) ∧ (∀ p ∈ Tangent.pair, bar.Holds p (stretched 3).y (barPart 3)) ∧
    ∀ p ∈ Tangent.pair, ∃ th theta F, elasticMaterial (barPart 3) bar.K bar.mu p.nbs.length (encode p.nbs) th = .ok (theta, F) := by
  refine ⟨by decide, ?_, ?_⟩
  · intro p hp
    simp only [Tangent.pair, List.mem_cons, List.not_mem_nil, or_false] at hp
    subst hp
    exact ⟨fun _ => rfl, fun _ => rfl, fun _ => rfl, fun _ => rfl, fun _ _ _ _ _ => rfl, rfl, rfl, rfl⟩
  · intro p hp
    simp only [Tangent.pair, List.mem_cons, List.not_mem_nil, or_false] at hp
    subst hp
    have hne : comp (stretched 3).y 1 ≠ comp (stretched 3).y 0 := by
      rw [comp_zero, comp_one]
      intro e
      have := congrFun e 0
      norm_num at this
    have hx : bar.x 1 ≠ bar.x 0 := by
      intro e
      have := congrFun e 0
      simp [bar] at this
    obtain ⟨theta, F, hr⟩ := elastic_defined (C := barPart 3) (nbs := [[1], [0]]) (by
      intro p j hb
      obtain ⟨ns, h1, h2⟩ := hb
      have hp : p < 2 := (List.getElem?_eq_some_iff.1 h1).1
      interval_cases p
      · cases h1
        simp at h2
        subst h2
        exact ⟨one_ne_zero, hne, hx⟩
      · cases h1
        simp at h2
        subst h2
        exact ⟨one_ne_zero, hne.symm, hx.symm⟩) bar.K bar.mu fun _ => 0
    exact ⟨_, theta, F, hr⟩

end Verif.Fad
