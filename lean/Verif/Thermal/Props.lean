import Verif.Thermal.Lemmas
import Verif.Diffusion.Props

/-!
# Implicit diffusion: what is written (C110, C111, C112)
-/

namespace Verif.Thermal

open Verif Verif.BC Verif.Explicit Verif.QuasiStatic Verif.Dof

variable {σ ω : Type}

/-! ## C110 -/

/-- **C110**, times: the load steps written are the requested times in their order, each starting at
the one before it; all of them are written unless one is not accepted. -/
theorem C110_times (P : Params) (E : Env) (S : Solver σ ω) (N : σ) (work : ω) (vecs : Vecs)
    (ts : List ℝ) (w : Vecs) (x : Result ω) (h : simulate P E S N work vecs ts = .ok (w, x)) :
    ∃ t0 rest, ts = t0 :: rest ∧ (x.log.map Record.time) <+: rest ∧
      (x.log.map Record.previous) <+: ts ∧
      (x.finished = true ↔ x.log.map Record.time = rest) := by
  obtain ⟨t0, rest, rfl, hi, hs⟩ := simulate_ok h
  obtain ⟨h1, h2, h3⟩ := steps_follows _ _ _ _ _ _ hs
  refine ⟨t0, rest, rfl, h2, ?_, ?_⟩
  · clear hs h h3 hi
    revert h1 h2
    generalize x.log = log
    intro h1
    induction h1 generalizing rest with
    | nil => intro _; exact List.nil_prefix
    | @cons tp N work vecs r rs ha hacc hp _ ih =>
      intro h2
      cases rest with
      | nil => exact absurd (List.prefix_nil.mp h2) (by simp)
      | cons t1 rest =>
        obtain ⟨e1, e2⟩ := List.cons_prefix_cons.mp h2
        have := ih rest e2
        rw [List.map_cons, List.cons_prefix_cons, ← e1]
        exact ⟨hp, this⟩
  · rw [h3]
    constructor
    · intro e
      exact h2.eq_of_length (by rw [List.length_map]; exact e)
    · intro e
      rw [← e, List.length_map]

/-- **C110**, balance: in every load step written the flux divergence, evaluated at the temperatures
written, vanishes at every node whose temperature is not held, up to a number that is at most the
tolerance of that load step or below a hundred times the tolerance - unless the tolerance exceeds
1e48, in which case a failure of the linear solver goes unnoticed. -/
theorem C110_balance (P : Params) (E : Env) (S : Solver σ ω) (ds : List Definition)
    (hcs : makeConditions ds = .ok E.cs) (hm : E.dofs = tempOnly) (N : σ) (work : ω) (vecs : Vecs)
    (ts : List ℝ) (w : Vecs) (x : Result ω) (h : simulate P E S N work vecs ts = .ok (w, x))
    (r : Record ω) (hr : r ∈ x.log) :
    ∃ (N' : σ) (wk wk' : ω) (dens : Unknown → Nat → ℝ) (bound : ℝ),
      S.evaluate N' wk (r.time - r.previous) r.vecs = .ok (wk', dens) ∧
      r.attempt.iter.bal.flux = dens .temperature ∧
      (∀ g l, lid E.C.owned g = some l → ¬ Held E g →
        21 * |dens .temperature l * E.volume l| ≤ bound) ∧
      (bound ≤ r.attempt.tol ∨ bound < 100 * r.attempt.tol ∨ 10 ^ 48 < r.attempt.tol) := by
  obtain ⟨N', work', vecs', ha, hacc⟩ := record_attempt h hr
  obtain ⟨w1, w2, b0, m, _, _, _, _, _, _, hs⟩ :=
    attempt_ok (K := fun _ => False) (fun _ _ _ _ h => h.elim) ha
  obtain ⟨wk, b, hb, hf, hres, hnorm⟩ := hs.bal
  unfold balance at hb
  obtain ⟨p, hp, hb⟩ := Outcome.bind_eq_ok.mp hb
  obtain ⟨z, hz, hb⟩ := Outcome.bind_eq_ok.mp hb
  have e := ok_inj hb
  subst e
  refine ⟨N', wk, p.1, p.2, residualNorm E z, hp, ?_, ?_, ?_⟩
  · rw [hf, hm]; rfl
  · intro g l hl hfree
    have e1 := (zeroed_exact hcs hm hz hl).2 hfree
    have hlt : l < size E := by
      obtain ⟨q1, q2⟩ := lid_some.mp hl
      rw [size_tempOnly hm, q2]
      exact List.idxOf_lt_length_of_mem q1
    have e2 := residualNorm_ge E z _ hlt
    have ht : E.dofs.total = 1 := by rw [hm]; rfl
    rw [ht, Nat.div_one, hm, density_tempOnly] at e1
    rw [← e1]
    exact e2
  · unfold accepts at hacc
    simp only [Bool.or_eq_true, decide_eq_true_eq, not_lt] at hacc
    rcases hnorm with hn | hn
    · rw [hn] at hacc
      exact hacc.elim .inl fun h => .inr (.inl h)
    · rw [hn] at hacc
      refine .inr (.inr ?_)
      rcases hacc with hacc | hacc
      · have : (10 : ℝ) ^ 48 < 10 ^ 50 := by norm_num
        linarith
      · have : (10 : ℝ) ^ 50 = 100 * 10 ^ 48 := by norm_num
        rw [this] at hacc
        linarith

/-- **C110**, tolerance: an absolute tolerance is used as it is, a relative one is relative to the
heat that has to be supplied at the held nodes at the beginning of the load step. -/
theorem C110_tolerance (P : Params) (E : Env) (S : Solver σ ω) (ds : List Definition)
    (hcs : makeConditions ds = .ok E.cs) (hm : E.dofs = tempOnly) (N : σ) (work : ω) (vecs : Vecs)
    (tp tc : ℝ) (a : Attempt ω) (h : attempt P E S N work vecs tp tc = .ok a) :
    (P.useAbsoluteTolerance = true → a.tol = P.tolerance) ∧
    (P.useAbsoluteTolerance = false → ∃ w1 w2 wk dens,
      applyBoundary E.C E.cs.boundary tc tp vecs = .ok w1 ∧
      applyForces E.C E.cs.force tc tp w1 = .ok w2 ∧
      S.evaluate N work (tc - tp) w2 = .ok (wk, dens) ∧
      (E.C.owned.Nodup → a.tol = P.tolerance * supply E (dens .temperature))) := by
  obtain ⟨w1, w2, b, m, h1, h2, hb, hmul, htol, _⟩ :=
    attempt_ok (K := fun _ => False) (fun _ _ _ _ h => h.elim) h
  unfold toleranceMultiplier at hmul
  refine ⟨fun ht => ?_, fun ht => ?_⟩
  · rw [ht, if_pos rfl] at hmul
    rw [htol, ← ok_inj hmul, mul_one]
  · rw [ht, if_neg (by simp)] at hmul
    obtain ⟨l, hl, hmul'⟩ := Outcome.bind_eq_ok.mp hmul
    unfold balance at hb
    obtain ⟨p, hp, hb⟩ := Outcome.bind_eq_ok.mp hb
    obtain ⟨z, hz, hb⟩ := Outcome.bind_eq_ok.mp hb
    have e := ok_inj hb
    subst e
    refine ⟨w1, w2, p.1, p.2, h1, h2, hp, fun hnd => ?_⟩
    rw [htol, ← ok_inj hmul']
    unfold norm2 supply
    congr 2
    have hsets : SetsFound E.dofs E.C.sets E.cs.boundary := by
      unfold zeroed at hz
      obtain ⟨v', hv', _⟩ := Outcome.bind_eq_ok.mp hz
      exact insertZeros_sets _ _ _ hv'
    have ht1 : E.dofs.total = 1 := by rw [hm]; rfl
    have hflux : fluxVector E.dofs p.2 = p.2 .temperature := by rw [hm]; rfl
    obtain ⟨l', e2, hlen, hx⟩ := reactions_exact E.dofs (by rw [hm]; exact tempOnly_good) E.C.owned
      E.C.sets E.cs.boundary (makeConditions_coords hcs) hsets
      ((List.range E.C.owned.length).map (fluxVector E.dofs p.2))
      (by rw [List.length_map, List.length_range, ht1, Nat.one_mul])
    rw [hl] at e2
    have e2 := ok_inj e2
    subst e2
    apply Finset.sum_congr rfl
    intro i hi
    have hi := Finset.mem_range.mp hi
    have hg : lid E.C.owned (E.C.owned[i]) = some i :=
      lid_some.mpr ⟨List.getElem_mem hi, (hnd.idxOf_getElem i hi).symm⟩
    obtain ⟨y1, y2⟩ := hx _ i .temperature 0 hg (by rw [hm]; rfl) (by rw [hm]; decide)
    have hrow : Dof.row E.dofs i .temperature 0 = i := by
      rw [hm]
      show 1 * i + 0 + 0 = i
      omega
    rw [hrow] at y1 y2
    show (l.getD i 0 * E.volume i) ^ 2 = _
    by_cases hh : Held E (E.C.owned[i])
    · rw [if_pos ⟨_, hg, hh⟩, List.getD_eq_getElem?_getD, y1 hh, List.getElem?_map,
        List.getElem?_range hi, hflux]
      rfl
    · rw [if_neg, List.getD_eq_getElem?_getD, y2 hh]
      · simp
      · rintro ⟨g, hg1, hg2⟩
        have := lid_inj hg1 hg
        subst this
        exact hh hg2

/-- **C110**, prescribed temperatures: in every load step written, a node with a prescribed
temperature has it, provided no later condition covers the node. -/
theorem C110_prescribed (P : Params) (E : Env) (S : Solver σ ω) (ds : List Definition)
    (hcs : makeConditions ds = .ok E.cs) (hm : E.dofs = tempOnly) (N : σ) (work : ω) (vecs : Vecs)
    (ts : List ℝ) (w : Vecs) (x : Result ω) (h : simulate P E S N work vecs ts = .ok (w, x))
    (r : Record ω) (hr : r ∈ x.log)
    (pre post : List Definition) (d : Definition) (hds : ds = pre ++ d :: post)
    (hd : d.type = .prescribedTemperature) (g l : Nat) (hl : lid E.C.owned g = some l)
    (hcov : Covers E.C.sets d g 0)
    (hpost : ∀ d' ∈ post, BC.Thermal d'.type → ¬ Covers E.C.sets d' g 0) :
    d.value (E.C.x (l * 3)) (E.C.x (l * 3 + 1)) (E.C.x (l * 3 + 2)) r.time =
      some (r.vecs .temperature l) := by
  obtain ⟨N', work', vecs', ha, hacc⟩ := record_attempt h hr
  have hheld : Held E g := by
    obtain ⟨hbd, _⟩ := makeConditions_ok hcs
    refine ⟨by rw [hm]; rfl, obj d .temperature .dirichlet, ?_, ?_, hcov.1, hcov.2⟩
    · rw [hbd, hds]
      refine List.mem_flatMap.mpr ⟨d, by simp, ?_⟩
      unfold boundaryOf
      rw [hd]
      simp
    · show unknownOf d.type = _
      rw [hd]; rfl
  obtain ⟨w1, w2, b0, m, h1, h2, _, _, _, _, hs⟩ := attempt_ok (K := fun i => i = l)
    (fun f r hz i hi => by rw [hi]; exact (zeroed_exact hcs hm hz hl).1 hheld) ha
  have := (prescribed_temperature_exact E.C ds E.cs hcs _ _ _ _ h1 pre post d hds hd g l hl hcov
    hpost).1
  rw [this]
  congr 1
  show w1 .temperature l = r.attempt.iter.vecs .temperature l
  rw [hs.held l rfl, forces_keep hcs h2 (by decide)]

/-- **C110**, first output: before the first load step an initial temperature wins over a prescribed
one, so the prescribed temperature of a node that also has an initial temperature is missing from the
first output. -/
theorem C110_initial (P : Params) (E : Env) (S : Solver σ ω) (ds : List Definition)
    (hcs : makeConditions ds = .ok E.cs) (N : σ) (work : ω) (vecs : Vecs)
    (ts : List ℝ) (w : Vecs) (x : Result ω) (h : simulate P E S N work vecs ts = .ok (w, x))
    (g l : Nat) (hl : lid E.C.owned g = some l)
    (pre post : List Definition) (d : Definition) (hds : ds = pre ++ d :: post)
    (hd : d.type = .initialTemperature) (hcov : Covers E.C.sets d g 0)
    (hpost : ∀ d' ∈ post, d'.type = .initialTemperature → ¬ Covers E.C.sets d' g 0) :
    d.value (E.C.x (l * 3)) (E.C.x (l * 3 + 1)) (E.C.x (l * 3 + 2)) 0 = some (w .temperature l) := by
  obtain ⟨t0, rest, rfl, hi, _⟩ := simulate_ok h
  unfold initially at hi
  obtain ⟨w1, _, hi⟩ := Outcome.bind_eq_ok.mp hi
  obtain ⟨w2, _, hi⟩ := Outcome.bind_eq_ok.mp hi
  have := ((initial_conditions_exact E.C ds E.cs hcs w2 w hi).1 .temperature g l 0
    (by simp [Derived]) hl (by decide)).2 pre d post hds (by rw [hd]; rfl) hcov (by
      intro d' hd' ht
      refine hpost d' hd' ?_
      cases h' : d'.type <;> rw [h'] at ht <;> simp [initialTarget] at ht)
  rw [this]
  show some (w .temperature (l * 1 + 0)) = _
  rw [Nat.mul_one, Nat.add_zero]

/-- **C110**, first output: without an initial temperature a prescribed one is there from the
start. -/
theorem C110_initial_prescribed (P : Params) (E : Env) (S : Solver σ ω) (ds : List Definition)
    (hcs : makeConditions ds = .ok E.cs) (N : σ) (work : ω) (vecs : Vecs)
    (t0 : ℝ) (rest : List ℝ) (w : Vecs) (x : Result ω)
    (h : simulate P E S N work vecs (t0 :: rest) = .ok (w, x))
    (pre post : List Definition) (d : Definition) (hds : ds = pre ++ d :: post)
    (hd : d.type = .prescribedTemperature) (g l : Nat) (hl : lid E.C.owned g = some l)
    (hcov : Covers E.C.sets d g 0)
    (hpost : ∀ d' ∈ post, BC.Thermal d'.type → ¬ Covers E.C.sets d' g 0)
    (hini : ∀ d' ∈ ds, d'.type = .initialTemperature → ¬ Covers E.C.sets d' g 0) :
    d.value (E.C.x (l * 3)) (E.C.x (l * 3 + 1)) (E.C.x (l * 3 + 2)) t0 =
      some (w .temperature l) := by
  obtain ⟨t0', rest', e, hi, _⟩ := simulate_ok h
  rw [List.cons.injEq] at e
  obtain ⟨rfl, rfl⟩ := e
  unfold initially at hi
  obtain ⟨w1, h1, hi⟩ := Outcome.bind_eq_ok.mp hi
  obtain ⟨w2, h2, hi⟩ := Outcome.bind_eq_ok.mp hi
  have e1 := ((initial_conditions_exact E.C ds E.cs hcs w2 w hi).1 .temperature g l 0
    (by simp [Derived]) hl (by decide)).1 (by
      intro d' hd' ht
      refine hini d' hd' ?_
      cases h' : d'.type <;> rw [h'] at ht <;> simp [initialTarget] at ht)
  have e1 : w .temperature (l * 1 + 0) = w2 .temperature (l * 1 + 0) := e1
  rw [Nat.mul_one, Nat.add_zero] at e1
  rw [e1, forces_keep hcs h2 (by decide)]
  exact (prescribed_temperature_exact E.C ds E.cs hcs _ _ _ _ h1 pre post d hds hd g l hl hcov
    hpost).1

/-- **C110**, the body does not move: displacements and positions written are those the run began
with, even where displacements are prescribed. -/
theorem C110_unmoved (P : Params) (E : Env) (S : Solver σ ω) (ds : List Definition)
    (hcs : makeConditions ds = .ok E.cs) (N : σ) (work : ω) (vecs : Vecs)
    (ts : List ℝ) (w : Vecs) (x : Result ω) (h : simulate P E S N work vecs ts = .ok (w, x))
    (r : Record ω) (hr : r ∈ x.log) : r.vecs .u = w .u ∧ r.vecs .y = w .y := by
  obtain ⟨t0, rest, rfl, hi, hs⟩ := simulate_ok h
  have hf := (steps_follows _ _ _ _ _ _ hs).1
  clear hs h hi
  revert hr
  revert hf
  generalize x.log = log
  intro hf
  have key : ∀ {N : σ} {work : ω} {vecs : Vecs} {tp tc : ℝ} {a : Attempt ω},
      attempt P E S N work vecs tp tc = .ok a →
      a.iter.vecs .u = vecs .u ∧ a.iter.vecs .y = vecs .y := by
    intro N work vecs tp tc a ha
    obtain ⟨w1, w2, b0, m, h1, h2, _, _, _, _, hs⟩ :=
      attempt_ok (K := fun _ => False) (fun _ _ _ _ h => h.elim) ha
    obtain ⟨hbd, _, hco, _⟩ := makeConditions_ok hcs
    obtain ⟨a1, a2, _⟩ := applyAll_ok E.cs.boundary (fun c hc =>
      (boundary_target (ds := ds) (by rw [← hbd]; exact hc)).1) hco _ _ h1
    refine ⟨?_, ?_⟩
    · rw [hs.keep _ (by decide), forces_keep hcs h2 (by decide), a1]
    · rw [hs.keep _ (by decide), forces_keep hcs h2 (by decide)]
      funext i
      exact a2 .y i fun c hc l hh =>
        (boundary_target (ds := ds) (by rw [← hbd]; exact hc)).2.2 hh.1
  induction hf with
  | nil => intro hr; exact absurd hr (by simp)
  | cons ha _ _ _ ih =>
    intro hr
    obtain ⟨e1, e2⟩ := key ha
    rcases List.mem_cons.mp hr with rfl | hr
    · exact ⟨e1, e2⟩
    · obtain ⟨f1, f2⟩ := ih hr
      exact ⟨f1.trans e1, f2.trans e2⟩

theorem foldlM_mem {α β : Type} {f : α → β → Outcome α} : ∀ (l : List β) (s s' : α),
    l.foldlM f s = .ok s' → ∀ x ∈ l, ∃ a a', f a x = .ok a' := by
  intro l
  induction l with
  | nil => intro _ _ _ x hx; exact absurd hx (by simp)
  | cons y l ih =>
    intro s s' h x hx
    obtain ⟨s1, h1, h2⟩ := foldlM_cons_ok.mp h
    rcases List.mem_cons.mp hx with rfl | hx
    · exact ⟨_, _, h1⟩
    · exact ih _ _ h2 x hx

/-- **C110**, time zero: a load step that ends at time zero (an analysis may start at a negative
time) cannot be computed as soon as the temperature of a node is prescribed: the increment since time
zero is divided by the time since time zero. -/
theorem C110_time_zero (P : Params) (E : Env) (S : Solver σ ω) (ds : List Definition)
    (hcs : makeConditions ds = .ok E.cs) (d : Definition) (hmem : d ∈ ds)
    (hd : d.type = .prescribedTemperature) (g l : Nat) (hl : lid E.C.owned g = some l)
    (hcov : Covers E.C.sets d g 0) (N : σ) (work : ω) (vecs : Vecs) (tp : ℝ) (hp : tp ≠ 0) :
    ∀ a, attempt P E S N work vecs tp 0 ≠ .ok a := by
  intro a h
  obtain ⟨w1, _, _, _, h1, _⟩ := attempt_ok (K := fun _ => False) (fun _ _ _ _ h => h.elim) h
  have hc : obj d .deltaTemperature (.increment 1 0 true) ∈ E.cs.boundary := by
    rw [(makeConditions_ok hcs).1]
    refine List.mem_flatMap.mpr ⟨d, hmem, ?_⟩
    unfold boundaryOf
    rw [hd]
    simp
  obtain ⟨s, s', hs⟩ := foldlM_mem _ _ _ h1 _ hc
  obtain ⟨_, nodes, hn, hg⟩ := hcov
  unfold apply at hs
  rw [if_neg (by unfold skips; simp only [obj]; simpa using hp.symm)] at hs
  unfold applyToSet at hs
  have hn' : E.C.sets (obj d .deltaTemperature (.increment 1 0 true)).nodeSet = some nodes := hn
  rw [hn'] at hs
  obtain ⟨u, u', hu⟩ := foldlM_mem _ _ _ hs g hg
  unfold applyNode at hu
  rw [hl] at hu
  obtain ⟨r, hr, _⟩ := Outcome.bind_eq_ok.mp hu
  unfold nodeValue at hr
  obtain ⟨q, _, hr⟩ := Outcome.bind_eq_ok.mp hr
  unfold incrementValue at hr
  rw [if_pos (by simp [previousTime])] at hr
  exact absurd hr (by simp)

/-- **C110**, defined: with existing node sets, functions of the conditions defined everywhere, and an
evaluation and linear solver that do not fail, an analysis in which time zero is at most the first
of the requested times cannot fail. -/
theorem C110_defined (P : Params) (E : Env) (S : Solver σ ω) (ds : List Definition)
    (hcs : makeConditions ds = .ok E.cs) (hm : E.dofs = tempOnly)
    (hsets : ∀ d ∈ ds, ∃ nodes, E.C.sets d.nodeSet = some nodes)
    (hval : ∀ d ∈ ds, ∀ x y z t, (d.value x y z t).isSome)
    (hev : ∀ N wk dt w, ∃ p, S.evaluate N wk dt w = .ok p)
    (hdir : ∀ N wk dt w r, ∃ p, S.direction N wk dt w r = .ok p)
    (N : σ) (work : ω) (vecs : Vecs) (t0 : ℝ) (rest : List ℝ) (hne : ∀ t ∈ rest, t ≠ 0) :
    ∃ w x, simulate P E S N work vecs (t0 :: rest) = .ok (w, x) := by
  obtain ⟨hbd, hfc, hco, _⟩ := makeConditions_ok hcs
  obtain ⟨hin, _⟩ := makeConditions_initial hcs
  have hb : ∀ c ∈ E.cs.boundary, Applicable E.C c := by
    intro c hc
    rw [hbd] at hc
    obtain ⟨d, hd, hc⟩ := List.mem_flatMap.mp hc
    exact boundaryOf_applicable hc (hsets d hd) (hval d hd)
  have hf : ∀ c ∈ E.cs.force, Applicable E.C c ∧ c.kind = .dirichlet := by
    intro c hc
    rw [hfc] at hc
    obtain ⟨d, hd, hc⟩ := List.mem_flatMap.mp hc
    exact forceOf_applicable hc (hsets d hd) (hval d hd)
  have hi : ∀ c ∈ E.cs.initial, Applicable E.C c ∧ c.kind = .dirichlet := by
    intro c hc
    rw [hin] at hc
    obtain ⟨d, hd, hc⟩ := List.mem_flatMap.mp hc
    exact initialOf_applicable hc (hsets d hd) (hval d hd)
  have hfound : SetsFound E.dofs E.C.sets E.cs.boundary := fun c hc _ _ _ => (hb c hc).1
  have hsteps : ∀ (ts : List ℝ) (tp : ℝ) (N : σ) (wk : ω) (v : Vecs), (∀ t ∈ ts, t ≠ 0) →
      ∃ x, steps P E S ts tp N wk v = .ok x := by
    intro ts
    induction ts with
    | nil => intros; exact ⟨_, rfl⟩
    | cons tc ts ih =>
      intro tp N wk v hts
      obtain ⟨a, ha⟩ := attempt_defined (P := P) (S := S) hcs hm hfound hb hf hev hdir N wk v tp tc
        (hts tc (List.mem_cons_self ..))
      unfold steps
      rw [ha, Outcome.ok_bind]
      split
      · obtain ⟨x, hx⟩ := ih tc _ _ _ fun t ht => hts t (List.mem_cons_of_mem _ ht)
        rw [hx]
        exact ⟨_, rfl⟩
      · exact ⟨_, rfl⟩
  obtain ⟨w, hw⟩ : ∃ w, initially E t0 vecs = .ok w := by
    obtain ⟨w1, h1⟩ := foldlM_defined E.cs.boundary (f := apply E.C t0 t0)
      (fun c hc s => apply_ok_of (hb c hc) (.inl rfl) s) vecs
    obtain ⟨w2, h2⟩ := foldlM_defined E.cs.force (f := apply E.C t0 t0)
      (fun c hc s => apply_ok_of (hf c hc).1 (.inl rfl) s) (clearForce w1)
    obtain ⟨w3, h3⟩ := foldlM_defined E.cs.initial (f := fun s c => do
        let s' ← apply E.C 0 0 s c
        .ok (afterInitial E.C c.type s'))
      (fun c hc s => by
        obtain ⟨s', hs'⟩ := apply_ok_of (hi c hc).1 (.inl rfl) s
        exact ⟨_, by rw [hs']; rfl⟩) w2
    exact ⟨w3, Outcome.bind_eq_ok.mpr ⟨w1, h1, Outcome.bind_eq_ok.mpr ⟨w2, h2, h3⟩⟩⟩
  obtain ⟨x, hx⟩ := hsteps rest t0 N work w hne
  exact ⟨w, x, Outcome.bind_eq_ok.mpr ⟨w, hw, Outcome.bind_eq_ok.mpr ⟨x, hx, rfl⟩⟩⟩

end Verif.Thermal
