import Verif.Thermal.Spec
import Verif.QuasiStatic.SolveLemmas
import Verif.BC.ThermalProps
import Verif.BC.InitialProps

/-!
# Implicit diffusion: lemmas
-/

namespace Verif.Thermal

open Verif Verif.BC Verif.Explicit Verif.QuasiStatic Verif.Dof

variable {σ ω : Type} {P : Params} {E : Env} {S : Solver σ ω}

theorem tempOnly_good : GoodLayout tempOnly := (layout_partial _).2

theorem density_tempOnly (dens : Unknown → Nat → ℝ) (ext : Nat → ℝ) (i : Nat) :
    density tempOnly dens ext i = dens .temperature i := by
  unfold density
  have h : tempOnly.total = 1 := rfl
  rw [h, Nat.mod_one, Nat.div_one]
  rfl

theorem size_tempOnly (hm : E.dofs = tempOnly) : size E = E.C.owned.length := by
  unfold size
  rw [hm]
  exact Nat.one_mul _

/-! ## Held entries -/

theorem zeroed_exact {ds : List Definition} (hcs : makeConditions ds = .ok E.cs)
    (hm : E.dofs = tempOnly) {f r : Nat → ℝ} (h : zeroed E f = .ok r) {g l : Nat}
    (hl : lid E.C.owned g = some l) :
    (Held E g → r l = 0) ∧ (¬ Held E g → r l = f l) := by
  unfold zeroed at h
  obtain ⟨v', hv', h⟩ := Outcome.bind_eq_ok.mp h
  have e := ok_inj h
  have hlt : l < size E := by
    obtain ⟨h1, h2⟩ := lid_some.mp hl
    rw [size_tempOnly hm, h2]
    exact List.idxOf_lt_length_of_mem h1
  obtain ⟨v2, e2, _, hx⟩ := insert_zeros_exact E.dofs (by rw [hm]; exact tempOnly_good) E.C.owned
    E.C.sets E.cs.boundary (makeConditions_coords hcs) (insertZeros_sets _ _ _ hv')
    ((List.range (size E)).map f) (by rw [List.length_map, List.length_range]; rfl)
  rw [hv'] at e2
  have e2 := ok_inj e2
  subst e2
  obtain ⟨h1, h2⟩ := hx g l .temperature 0 hl (by rw [hm]; rfl) (by rw [hm]; decide)
  have hrow : Dof.row E.dofs l .temperature 0 = l := by
    rw [hm]
    show 1 * l + 0 + 0 = l
    omega
  rw [hrow] at h1 h2
  subst e
  simp only [List.getD_eq_getElem?_getD]
  refine ⟨fun hc => by rw [h1 hc]; rfl, fun hc => ?_⟩
  rw [h2 hc, List.getElem?_map, List.getElem?_range hlt]
  rfl

theorem residualNorm_ge (E : Env) (r : Nat → ℝ) (i : Nat) (h : i < size E) :
    21 * |r i| ≤ residualNorm E r := by
  unfold residualNorm
  have h1 := norm2_ge r (size E) i h
  have h2 := normInf_ge r (size E) i h
  linarith

theorem normInf_eq_zero {r : Nat → ℝ} {n : Nat} (h : ∀ i < n, r i = 0) : normInf n r = 0 := by
  induction n with
  | zero => rfl
  | succ n ih =>
    unfold normInf at ih ⊢
    rw [List.range_succ, List.foldl_append, ih fun i hi => h i (by omega)]
    simp [h n (by omega)]

theorem residualNorm_zero {E : Env} {r : Nat → ℝ} (h : ∀ i < size E, r i = 0) :
    residualNorm E r = 0 := by
  unfold residualNorm norm2
  rw [normInf_eq_zero h, Finset.sum_eq_zero fun i hi => by rw [h i (Finset.mem_range.mp hi)]; norm_num,
    Real.sqrt_zero]
  norm_num

/-! ## The iteration -/

/-- What holds at the beginning and end of every iteration: only temperatures have changed since the
conditions were applied, and not at the entries `K`; the residual is that of the current vectors,
the norm is its norm unless the linear solver failed. -/
structure Sound (E : Env) (S : Solver σ ω) (N : σ) (dt : ℝ) (w0 : Vecs) (K : Nat → Prop)
    (t : Iter ω) : Prop where
  keep : ∀ q, q ≠ .temperature → t.vecs q = w0 q
  held : ∀ i, K i → t.vecs .temperature i = w0 .temperature i
  bal : ∃ wk b, balance E S N wk dt t.vecs = .ok b ∧ t.bal.flux = b.flux ∧
    t.bal.residual = b.residual ∧ (t.norm = residualNorm E b.residual ∨ t.norm = 10 ^ 50)

theorem heat_ok {l : Nat → ℝ} {w w' : Vecs} (h : heat E l w = .ok w') :
    (∀ q, q ≠ .temperature → w' q = w q) ∧
    (∀ i, i < E.C.owned.length → w' .temperature i = w .temperature i + l i) ∧
    ∀ i, ¬ i < E.C.owned.length → w' .temperature i = w .temperature i := by
  unfold heat at h
  split at h
  · exact absurd h (by simp)
  · have e := ok_inj h
    subst e
    refine ⟨fun q hq => setVec_ne _ _ hq, fun i hi => ?_, fun i hi => ?_⟩
    · simp [setVec, hi]
    · simp [setVec, hi]

theorem applyIncrement_ok {N : σ} {dt : ℝ} {t t' : Iter ω} {work : ω} {lhs : Nat → ℝ}
    (h : applyIncrement E S N dt t work lhs = .ok t') :
    ∃ l, zeroed E lhs = .ok l ∧ heat E l t.vecs = .ok t'.vecs ∧
      balance E S N work dt t'.vecs = .ok t'.bal ∧ t'.norm = residualNorm E t'.bal.residual := by
  unfold applyIncrement at h
  obtain ⟨l, hl, h⟩ := Outcome.bind_eq_ok.mp h
  obtain ⟨w, hw, h⟩ := Outcome.bind_eq_ok.mp h
  obtain ⟨b, hb, h⟩ := Outcome.bind_eq_ok.mp h
  have e := ok_inj h
  subst e
  exact ⟨l, hl, hw, hb, rfl⟩

theorem applyIncrement_sound {N : σ} {dt : ℝ} {w0 : Vecs} {K : Nat → Prop}
    (hK : ∀ f r, zeroed E f = .ok r → ∀ i, K i → r i = 0) {t t' : Iter ω} {work : ω}
    {lhs : Nat → ℝ} (ht : Sound E S N dt w0 K t)
    (h : applyIncrement E S N dt t work lhs = .ok t') : Sound E S N dt w0 K t' := by
  obtain ⟨l, hl, hw, hb, hn⟩ := applyIncrement_ok h
  obtain ⟨h1, h2, h3⟩ := heat_ok hw
  refine ⟨fun q hq => (h1 q hq).trans (ht.keep q hq), fun i hi => ?_,
    ⟨work, t'.bal, hb, rfl, rfl, .inl hn⟩⟩
  by_cases hlt : i < E.C.owned.length
  · rw [h2 i hlt, hK _ _ hl i hi, add_zero, ht.held i hi]
  · rw [h3 i hlt, ht.held i hi]

theorem newton_sound {N : σ} {dt tol : ℝ} {w0 : Vecs} {K : Nat → Prop}
    (hK : ∀ f r, zeroed E f = .ok r → ∀ i, K i → r i = 0) : ∀ (fuel : Nat) (t t' : Iter ω),
    Sound E S N dt w0 K t → newton E S N dt tol fuel t = .ok t' → Sound E S N dt w0 K t' := by
  intro fuel
  induction fuel with
  | zero => intro t t' ht h; rw [← ok_inj h]; exact ht
  | succ fuel ih =>
    intro t t' ht h
    unfold newton at h
    split at h
    · obtain ⟨p, hp, h⟩ := Outcome.bind_eq_ok.mp h
      split at h
      · rw [← ok_inj h]
        obtain ⟨wk, b, h1, h2, h3, _⟩ := ht.bal
        exact ⟨ht.keep, ht.held, wk, b, h1, h2, h3, .inr rfl⟩
      · obtain ⟨t1, h1, h⟩ := Outcome.bind_eq_ok.mp h
        exact ih t1 t' (applyIncrement_sound hK ht h1) h
    · rw [← ok_inj h]; exact ht

theorem attempt_ok {N : σ} {work : ω} {vecs : Vecs} {tp tc : ℝ} {K : Nat → Prop}
    (hK : ∀ f r, zeroed E f = .ok r → ∀ i, K i → r i = 0) {a : Attempt ω}
    (h : attempt P E S N work vecs tp tc = .ok a) :
    ∃ w1 w2 b m, applyBoundary E.C E.cs.boundary tc tp vecs = .ok w1 ∧
      applyForces E.C E.cs.force tc tp w1 = .ok w2 ∧
      balance E S N work (tc - tp) w2 = .ok b ∧ toleranceMultiplier P E b.flux = .ok m ∧
      a.tol = P.tolerance * m ∧
      newton E S N (tc - tp) a.tol P.maxSolverIterations
        { vecs := w2, bal := b, norm := residualNorm E b.residual } = .ok a.iter ∧
      Sound E S N (tc - tp) w2 K a.iter := by
  unfold attempt at h
  obtain ⟨w1, hw1, h⟩ := Outcome.bind_eq_ok.mp h
  obtain ⟨w2, hw2, h⟩ := Outcome.bind_eq_ok.mp h
  obtain ⟨b, hb, h⟩ := Outcome.bind_eq_ok.mp h
  obtain ⟨m, hm, h⟩ := Outcome.bind_eq_ok.mp h
  obtain ⟨t, ht, h⟩ := Outcome.bind_eq_ok.mp h
  have e := ok_inj h
  subst e
  refine ⟨w1, w2, b, m, hw1, hw2, hb, hm, rfl, ht, newton_sound hK _ _ _ ?_ ht⟩
  exact ⟨fun _ _ => rfl, fun _ _ => rfl, work, b, hb, rfl, rfl, .inl rfl⟩

/-! ## The loop -/

/-- The chain of load steps: each record is an accepted attempt that starts from time, vectors and
states left by the one before. -/
inductive Follows (P : Params) (E : Env) (S : Solver σ ω) : ℝ → σ → ω → Vecs → List (Record ω) → Prop
  | nil (tp : ℝ) (N : σ) (work : ω) (vecs : Vecs) : Follows P E S tp N work vecs []
  | cons {tp : ℝ} {N : σ} {work : ω} {vecs : Vecs} {r : Record ω} {rs : List (Record ω)}
      (ha : attempt P E S N work vecs tp r.time = .ok r.attempt) (hacc : accepts r.attempt = true)
      (hp : r.previous = tp)
      (h : Follows P E S r.time (S.shift N r.attempt.iter.bal.work).1
        (S.shift N r.attempt.iter.bal.work).2 r.vecs rs) : Follows P E S tp N work vecs (r :: rs)

theorem steps_follows : ∀ (ts : List ℝ) (tp : ℝ) (N : σ) (work : ω) (vecs : Vecs) (x : Result ω),
    steps P E S ts tp N work vecs = .ok x →
    Follows P E S tp N work vecs x.log ∧ (x.log.map Record.time) <+: ts ∧
      (x.finished = true ↔ x.log.length = ts.length) := by
  intro ts
  induction ts with
  | nil =>
    intro tp N work vecs x h
    rw [← ok_inj h]
    exact ⟨.nil _ _ _ _, List.prefix_refl _, by simp⟩
  | cons tc rest ih =>
    intro tp N work vecs x h
    unfold steps at h
    obtain ⟨a, ha, h⟩ := Outcome.bind_eq_ok.mp h
    split at h
    · rename_i hacc
      obtain ⟨y, hy, h⟩ := Outcome.bind_eq_ok.mp h
      rw [← ok_inj h]
      obtain ⟨h1, h2, h3⟩ := ih _ _ _ _ y hy
      refine ⟨.cons ha hacc rfl h1, ?_, ?_⟩
      · show (tc :: y.log.map Record.time) <+: tc :: rest
        exact (List.cons_prefix_cons).mpr ⟨rfl, h2⟩
      · show y.finished = true ↔ y.log.length + 1 = rest.length + 1
        rw [h3]; omega
    · rw [← ok_inj h]
      exact ⟨.nil _ _ _ _, List.nil_prefix, by simp⟩

theorem follows_mem {tp : ℝ} {N : σ} {work : ω} {vecs : Vecs} {rs : List (Record ω)}
    (h : Follows P E S tp N work vecs rs) : ∀ r ∈ rs, ∃ N' work' vecs',
      attempt P E S N' work' vecs' r.previous r.time = .ok r.attempt ∧ accepts r.attempt = true := by
  induction h with
  | nil => intro r hr; exact absurd hr (by simp)
  | cons ha hacc hp _ ih =>
    intro r' hr'
    rcases List.mem_cons.mp hr' with rfl | hr'
    · exact ⟨_, _, _, by rw [hp]; exact ha, hacc⟩
    · exact ih r' hr'

theorem simulate_ok {N : σ} {work : ω} {vecs : Vecs} {ts : List ℝ} {w : Vecs} {x : Result ω}
    (h : simulate P E S N work vecs ts = .ok (w, x)) :
    ∃ t0 rest, ts = t0 :: rest ∧ initially E t0 vecs = .ok w ∧ steps P E S rest t0 N work w = .ok x := by
  cases ts with
  | nil => exact absurd h (by simp [simulate])
  | cons t0 rest =>
    unfold simulate at h
    obtain ⟨w', hw, h⟩ := Outcome.bind_eq_ok.mp h
    obtain ⟨y, hy, h⟩ := Outcome.bind_eq_ok.mp h
    have e := ok_inj h
    rw [Prod.mk.injEq] at e
    obtain ⟨rfl, rfl⟩ := e
    exact ⟨t0, rest, rfl, hw, hy⟩

theorem record_attempt {N : σ} {work : ω} {vecs : Vecs} {ts : List ℝ} {w : Vecs} {x : Result ω}
    (h : simulate P E S N work vecs ts = .ok (w, x)) {r : Record ω} (hr : r ∈ x.log) :
    ∃ N' work' vecs', attempt P E S N' work' vecs' r.previous r.time = .ok r.attempt ∧
      accepts r.attempt = true := by
  obtain ⟨t0, rest, _, _, hs⟩ := simulate_ok h
  exact follows_mem (steps_follows _ _ _ _ _ _ hs).1 r hr

/-! ## Definedness -/

/-- The condition names an existing node set and its function is defined everywhere. -/
def Applicable (C : Ctx) (c : Condition) : Prop :=
  (∃ nodes, C.sets c.nodeSet = some nodes) ∧ ∀ x y z t, (c.value x y z t).isSome

theorem apply_ok_of {C : Ctx} {c : Condition} (h : Applicable C c) {tc tp : ℝ}
    (ht : tc = tp ∨ tc ≠ 0) (s : Vecs) : ∃ s', apply C tc tp s c = .ok s' := by
  obtain ⟨⟨nodes, hn⟩, hv⟩ := h
  have call : ∀ l t, ∃ r, callFunction C c l t = .ok r := by
    intro l t
    obtain ⟨r, hr⟩ := Option.isSome_iff_exists.mp (hv (C.x (l * 3)) (C.x (l * 3 + 1)) (C.x (l * 3 + 2)) t)
    exact ⟨r, by unfold callFunction; rw [hr]⟩
  have parse : ∀ u l t t', ∃ r, evaluateParser C c u l t t' = .ok r := by
    intro u l t t'
    obtain ⟨r1, h1⟩ := call l t'
    obtain ⟨r2, h2⟩ := call l t
    exact ⟨_, Outcome.bind_eq_ok.mpr ⟨r1, h1, Outcome.bind_eq_ok.mpr ⟨r2, h2, rfl⟩⟩⟩
  unfold apply
  split
  · exact ⟨s, rfl⟩
  · rename_i hs
    unfold applyToSet
    rw [hn]
    refine foldlM_defined nodes (fun g _ w => ?_) s
    unfold applyNode
    split
    · exact ⟨w, rfl⟩
    · rename_i l _
      have : ∃ r, nodeValue C c (w .u) tc tp l = .ok r := by
        unfold nodeValue
        unfold skips at hs
        split
        · obtain ⟨r, hr⟩ := parse (w .u) l tc 0
          exact ⟨r.1, Outcome.bind_eq_ok.mpr ⟨r, hr, rfl⟩⟩
        · rename_i p q rel hk
          rw [hk] at hs
          have hne : tc ≠ tp := by simpa using hs
          obtain ⟨r, hr⟩ := parse (w .u) l tc (previousTime rel tp)
          have : tc - previousTime rel tp ≠ 0 := by
            cases rel
            · exact sub_ne_zero.mpr hne
            · have : previousTime true tp = 0 := rfl
              rw [this, sub_zero]
              exact ht.resolve_left hne
          exact ⟨_, Outcome.bind_eq_ok.mpr ⟨r, hr, by unfold incrementValue; rw [if_neg this]⟩⟩
        · exact ⟨0, rfl⟩
      obtain ⟨r, hr⟩ := this
      exact ⟨_, Outcome.bind_eq_ok.mpr ⟨r, hr, rfl⟩⟩

theorem boundaryOf_applicable {C : Ctx} {d : Definition} {c : Condition} (hc : c ∈ boundaryOf d)
    (h1 : ∃ nodes, C.sets d.nodeSet = some nodes) (h2 : ∀ x y z t, (d.value x y z t).isSome) :
    Applicable C c := by
  unfold boundaryOf at hc
  cases ht : d.type <;> rw [ht] at hc <;>
    simp only [List.mem_cons, List.not_mem_nil, or_false] at hc <;>
    first
    | exact hc.elim
    | (rcases hc with rfl | rfl <;> exact ⟨h1, h2⟩)

theorem forceOf_applicable {C : Ctx} {d : Definition} {c : Condition} (hc : c ∈ forceOf d)
    (h1 : ∃ nodes, C.sets d.nodeSet = some nodes) (h2 : ∀ x y z t, (d.value x y z t).isSome) :
    Applicable C c ∧ c.kind = .dirichlet := by
  unfold forceOf at hc
  cases ht : d.type <;> rw [ht] at hc <;>
    simp only [List.mem_cons, List.not_mem_nil, or_false] at hc <;>
    first
    | exact hc.elim
    | (rcases hc with rfl; exact ⟨⟨h1, h2⟩, rfl⟩)

theorem initialOf_applicable {C : Ctx} {d : Definition} {c : Condition} (hc : c ∈ initialOf d)
    (h1 : ∃ nodes, C.sets d.nodeSet = some nodes) (h2 : ∀ x y z t, (d.value x y z t).isSome) :
    Applicable C c ∧ c.kind = .dirichlet := by
  unfold initialOf at hc
  split at hc
  · simp only [List.mem_cons, List.not_mem_nil, or_false] at hc
    subst hc
    exact ⟨⟨h1, h2⟩, rfl⟩
  · exact absurd hc (by simp)

theorem zeroed_defined (hm : E.dofs = tempOnly) {ds : List Definition}
    (hcs : makeConditions ds = .ok E.cs) (hfound : SetsFound E.dofs E.C.sets E.cs.boundary)
    (f : Nat → ℝ) : ∃ r, zeroed E f = .ok r := by
  obtain ⟨v, hv, _⟩ := insert_zeros_exact E.dofs (by rw [hm]; exact tempOnly_good) E.C.owned
    E.C.sets E.cs.boundary (makeConditions_coords hcs) hfound
    ((List.range (size E)).map f) (by rw [List.length_map, List.length_range]; rfl)
  exact ⟨_, Outcome.bind_eq_ok.mpr ⟨v, hv, rfl⟩⟩

theorem balance_defined (hm : E.dofs = tempOnly) {ds : List Definition}
    (hcs : makeConditions ds = .ok E.cs) (hfound : SetsFound E.dofs E.C.sets E.cs.boundary)
    (hev : ∀ N wk dt w, ∃ p, S.evaluate N wk dt w = .ok p) (N : σ) (wk : ω) (dt : ℝ) (w : Vecs) :
    ∃ b, balance E S N wk dt w = .ok b := by
  obtain ⟨p, hp⟩ := hev N wk dt w
  obtain ⟨r, hr⟩ := zeroed_defined hm hcs hfound
    fun i => density E.dofs p.2 (w .externalForce) i * E.volume (i / E.dofs.total)
  exact ⟨_, Outcome.bind_eq_ok.mpr ⟨p, hp, Outcome.bind_eq_ok.mpr ⟨r, hr, rfl⟩⟩⟩

theorem newton_defined (hm : E.dofs = tempOnly) {ds : List Definition}
    (hcs : makeConditions ds = .ok E.cs) (hfound : SetsFound E.dofs E.C.sets E.cs.boundary)
    (hev : ∀ N wk dt w, ∃ p, S.evaluate N wk dt w = .ok p)
    (hdir : ∀ N wk dt w r, ∃ p, S.direction N wk dt w r = .ok p) (N : σ) (dt tol : ℝ) :
    ∀ (fuel : Nat) (t : Iter ω), ∃ t', newton E S N dt tol fuel t = .ok t' := by
  intro fuel
  induction fuel with
  | zero => intro t; exact ⟨t, rfl⟩
  | succ fuel ih =>
    intro t
    unfold newton
    split
    · obtain ⟨p, hp⟩ := hdir N t.bal.work dt t.vecs t.bal.residual
      rw [hp, Outcome.ok_bind]
      cases hp2 : p.2 with
      | none => exact ⟨_, rfl⟩
      | some lhs =>
        obtain ⟨l, hl⟩ := zeroed_defined hm hcs hfound lhs
        obtain ⟨w, hw⟩ : ∃ w, heat E l t.vecs = .ok w := by
          unfold heat
          rw [if_neg (by rw [hm]; rintro ⟨h, _⟩; exact absurd h (by decide))]
          exact ⟨_, rfl⟩
        obtain ⟨b, hb⟩ := balance_defined hm hcs hfound hev N p.1 dt w
        have : applyIncrement E S N dt t p.1 lhs =
            .ok { vecs := w, bal := b, norm := residualNorm E b.residual } :=
          Outcome.bind_eq_ok.mpr ⟨l, hl, Outcome.bind_eq_ok.mpr ⟨w, hw,
            Outcome.bind_eq_ok.mpr ⟨b, hb, rfl⟩⟩⟩
        simp only [this, Outcome.ok_bind]
        exact ih _
    · exact ⟨t, rfl⟩

theorem attempt_defined {ds : List Definition} (hcs : makeConditions ds = .ok E.cs)
    (hm : E.dofs = tempOnly) (hfound : SetsFound E.dofs E.C.sets E.cs.boundary)
    (hb : ∀ c ∈ E.cs.boundary, Applicable E.C c)
    (hf : ∀ c ∈ E.cs.force, Applicable E.C c ∧ c.kind = .dirichlet)
    (hev : ∀ N wk dt w, ∃ p, S.evaluate N wk dt w = .ok p)
    (hdir : ∀ N wk dt w r, ∃ p, S.direction N wk dt w r = .ok p)
    (N : σ) (wk : ω) (v : Vecs) (tp tc : ℝ) (hne : tc ≠ 0) :
    ∃ a, attempt P E S N wk v tp tc = .ok a := by
  obtain ⟨w1, h1⟩ := foldlM_defined E.cs.boundary (f := apply E.C tc tp)
    (fun c hc s => apply_ok_of (hb c hc) (.inr hne) s) v
  obtain ⟨w2, h2⟩ := foldlM_defined E.cs.force (f := apply E.C tc tp)
    (fun c hc s => apply_ok_of (hf c hc).1 (.inr hne) s) (clearForce w1)
  obtain ⟨b, hbal⟩ := balance_defined hm hcs hfound hev N wk (tc - tp) w2
  obtain ⟨m, hmul⟩ : ∃ m, toleranceMultiplier P E b.flux = .ok m := by
    unfold toleranceMultiplier
    split
    · exact ⟨1, rfl⟩
    · obtain ⟨l, hl, _⟩ := reactions_exact E.dofs (by rw [hm]; exact tempOnly_good) E.C.owned
        E.C.sets E.cs.boundary (makeConditions_coords hcs) hfound
        ((List.range E.C.owned.length).map b.flux)
        (by rw [List.length_map, List.length_range, hm]; exact (Nat.one_mul _).symm)
      exact ⟨_, Outcome.bind_eq_ok.mpr ⟨l, hl, rfl⟩⟩
  obtain ⟨t, ht⟩ := newton_defined hm hcs hfound hev hdir N (tc - tp) (P.tolerance * m)
    P.maxSolverIterations { vecs := w2, bal := b, norm := residualNorm E b.residual }
  exact ⟨_, Outcome.bind_eq_ok.mpr ⟨w1, h1, Outcome.bind_eq_ok.mpr ⟨w2, h2,
    Outcome.bind_eq_ok.mpr ⟨b, hbal, Outcome.bind_eq_ok.mpr ⟨m, hmul,
    Outcome.bind_eq_ok.mpr ⟨t, ht, rfl⟩⟩⟩⟩⟩⟩

end Verif.Thermal
