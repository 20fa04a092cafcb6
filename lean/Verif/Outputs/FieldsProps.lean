import Verif.Outputs.FieldsLemmas

/-!
# Fields for output and output schedule: properties
-/

noncomputable section

namespace Verif.Outputs

open Verif Verif.Neigh Verif.BC
open scoped Classical

/-! ## C99: the acceleration in the output -/

/-- C99 holds for a component exactly when no external force acts on it: `rho` is the density of the
block of the point, `f` the force of the step.

What is missing: points with external forces, for which the field is not the acceleration. -/
theorem C99_partial {σ : Type} {P : Explicit.Params} {C : Ctx} {cs : Conditions}
    {eval : Explicit.Eval σ} {s s' : Explicit.State σ} {step : Nat} {w : Vecs} {b : σ}
    {f r : Nat → ℝ} {rho : ℝ}
    (hw : Explicit.predictor P C cs s (P.timeInitial + step * P.dt) = .ok w)
    (hf : eval s.blocks step w = .ok (b, f)) (h : Explicit.advance P C cs eval s step = .ok s')
    (hr : fieldAcceleration rho f = .ok r) {i : Nat} (hrho : P.density (i / 3) = rho) :
    r i = s'.a i ↔ s'.vecs .externalForce i = 0 := by
  unfold Explicit.advance at h
  rw [hw, Outcome.ok_bind, hf, Outcome.ok_bind] at h
  obtain ⟨a, ha, h⟩ := Outcome.bind_eq_ok.1 h
  cases h
  unfold fieldAcceleration at hr
  split at hr
  · cases hr
  · next h0 =>
    cases hr
    unfold Explicit.acceleration at ha
    split at ha
    · cases ha
    · cases ha
      have hne : Target.externalForce ≠ Target.v := by simp
      simp only
      rw [Explicit.setVec_ne _ _ hne, hrho]
      constructor
      · intro h
        field_simp at h
        linarith
      · intro h
        rw [h]
        field_simp
        ring

/-- The field is the acceleration minus the external force over the density. -/
theorem C99_difference {P : Explicit.Params} {f ext a r : Nat → ℝ} {rho : ℝ}
    (ha : Explicit.acceleration P f ext = .ok a) (hr : fieldAcceleration rho f = .ok r) {i : Nat}
    (hrho : P.density (i / 3) = rho) : r i = a i - ext i / rho := by
  unfold fieldAcceleration at hr
  split at hr
  · cases hr
  · cases hr
    unfold Explicit.acceleration at ha
    split at ha
    · cases ha
    · cases ha
      simp only
      rw [hrho]
      ring

/-- A point on which only an external force acts: it is accelerated, and the field is zero. -/
example : ∃ a r, Explicit.acceleration ⟨1, 0, 1, fun _ => 2, 3⟩ (fun _ => 0) (fun _ => 4) = .ok a ∧
    fieldAcceleration 2 (fun _ => 0) = .ok r ∧ a 0 = 2 ∧ r 0 = 0 := by
  refine ⟨fun i => (0 + 4) / 2, fun i => 0 * (1 / 2), ?_, ?_, by norm_num, by norm_num⟩
  · unfold Explicit.acceleration
    rw [if_neg (by norm_num)]
  · unfold fieldAcceleration
    rw [if_neg (by norm_num)]

/-! ## C100: forces, neighborhood volumes and numbers of neighbors in the output -/

/-- The force of a point is its force density times its volume. -/
theorem C100_force (n : Nat) (volume density : Nat → ℝ) :
    ∃ F, fieldForce n n n volume density = some F ∧
      ∀ p < n, ∀ c < 3, F (3 * p + c) = volume p * density (3 * p + c) := by
  refine ⟨_, if_neg (by simp), ?_⟩
  intro p hp c hc
  have : (3 * p + c) / 3 = p := by omega
  rw [this, if_pos hp]

/-- Vectors whose lengths do not belong together are refused. -/
theorem C100_force_refused (n nf no : Nat) (volume density : Nat → ℝ) :
    fieldForce n nf no volume density = none ↔ ¬ (nf = n ∧ no = n) := by
  unfold fieldForce
  by_cases h1 : nf = n <;> by_cases h2 : no = n <;> simp [h1, h2]

/-- The volume of a neighborhood is that of the point and its neighbors, and the number of neighbors
is that of the neighborhood; other points keep their values. -/
theorem C100_neighborhoods (nbs : List (List Nat)) (volume V N : Nat → ℝ) :
    ∃ V' N', neighborhoodVolumes volume none (encode nbs) nbs.length 0 0 0 V = .ok V' ∧
      numbersOfNeighbors (encode nbs) nbs.length 0 0 N = .ok N' ∧
      (∀ p ns, nbs[p]? = some ns → V' p = volume p + (ns.map volume).sum ∧ N' p = ns.length) ∧
      ∀ p ≥ nbs.length, V' p = V p ∧ N' p = N p := by
  obtain ⟨V', h1, h2, h3⟩ := neighborhoodVolumes_from volume none nbs [] 0 V (Or.inl rfl)
  obtain ⟨N', g1, g2, g3⟩ := numbersOfNeighbors_from nbs [] N
  refine ⟨V', N', h1, g1, fun p ns hp => ?_, fun p hp => ?_⟩
  · have e1 := h2 p ns hp
    have e2 := g2 p ns hp
    rw [List.length_nil, zero_add] at e1 e2
    exact ⟨e1, e2⟩
  · exact ⟨h3 p (Or.inr (by simpa using hp)), g3 p (Or.inr (by simpa using hp))⟩

/-- With partial volumes, those of the bonds of the point are used. -/
theorem C100_partial_volumes (nbs : List (List Nat)) (volume w V : Nat → ℝ) :
    ∃ V', neighborhoodVolumes volume (some w) (encode nbs) nbs.length 0 0 0 V = .ok V' ∧
      ∀ p ns, nbs[p]? = some ns → V' p = volume p +
        ((List.range ns.length).map fun t => w (Mech.bondPos nbs p t)).sum := by
  obtain ⟨V', h1, h2, h3⟩ := neighborhoodVolumes_from volume (some w) nbs [] 0 V (Or.inr rfl)
  refine ⟨V', h1, fun p ns hp => ?_⟩
  have := h2 p ns hp
  rw [List.length_nil, zero_add, List.nil_append] at this
  exact this

/-- Point 0 has two neighbors, point 1 one. -/
example : ([[1, 2], [0]] : List (List Nat))[0]? = some [1, 2] ∧
    Mech.bondPos [[1, 2], [0]] 1 0 = 2 := by
  refine ⟨rfl, by simp [Mech.bondPos]⟩

/-! ## C101: the steps that are written -/

/-- The steps written: multiples of the frequency up to the final output step, beginning with the step
before the initial output step; the records are numbered from 1 and have the times of the steps. -/
theorem C101_steps {f i j : Int} (hj : j < Explicit.intMax) {ts : List ℝ}
    (hts : (ts.length : Int) ≤ Explicit.intMax) :
    ∃ M recs, (Manager.create (some (some f, some i, some j))).writes ts = .ok (M, recs) ∧
      Records (Requested f (i - 1) j) ts recs := by
  refine ⟨_, _, writes_ok ts rfl (n := 0) (e := 0) rfl rfl (by simpa using hts) hj, ?_⟩
  unfold Records
  have : (fun x : ℝ × Nat => decide (Sel (Manager.create (some (some f, some i, some j))) x.2)) =
      fun x => decide (Requested f (i - 1) j x.2) := by
    funext x
    rw [decide_eq_decide]
    unfold Sel Requested
    simp only [Manager.create, Option.getD_some]
    constructor
    · rintro ⟨h1, h2, h3, h4⟩; exact ⟨h3, h4, by omega, h2⟩
    · rintro ⟨h1, h2, h3, h4⟩; exact ⟨by omega, h4, h1, h2⟩
  simp only [this]

/-- C101, if the step before the initial output step is not a multiple of the frequency or the initial
output step is not positive: the steps written are those the user asks for.

What is missing: the other initial output steps, see `C101_early`. -/
theorem C101_partial {f i j : Int} (hj : j < Explicit.intMax) (hi : i ≤ 0 ∨ ¬ f ∣ i - 1)
    {ts : List ℝ} (hts : (ts.length : Int) ≤ Explicit.intMax) :
    ∃ M recs, (Manager.create (some (some f, some i, some j))).writes ts = .ok (M, recs) ∧
      Records (Requested f i j) ts recs := by
  obtain ⟨M, recs, h1, h2⟩ := C101_steps (f := f) (i := i) hj hts
  refine ⟨M, recs, h1, ?_⟩
  unfold Records at h2 ⊢
  rw [h2]
  have : (fun x : ℝ × Nat => decide (Requested f (i - 1) j x.2)) =
      fun x => decide (Requested f i j x.2) := by
    funext x
    rw [decide_eq_decide]
    unfold Requested
    constructor
    · rintro ⟨h1, h2, h3, h4⟩
      refine ⟨h1, h2, ?_, h4⟩
      rcases hi with hi | hi
      · omega
      · by_contra hlt
        have : (x.2 : Int) = i - 1 := by omega
        rw [← this] at hi
        exact hi h2
    · rintro ⟨h1, h2, h3, h4⟩; exact ⟨h1, h2, by omega, h4⟩
  simp only [this]

/-- If it is, its configuration is written as the first record, although it is before the initial
output step. -/
theorem C101_early {f : Int} {n : Nat} {j : Int} (hf : 0 < f) (hn : f ∣ n) (hnj : (n : Int) ≤ j)
    (hj : j < Explicit.intMax) {ts : List ℝ} (hts : (ts.length : Int) ≤ Explicit.intMax)
    {t : ℝ} (ht : ts[n]? = some t) :
    ∃ M rest, (Manager.create (some (some f, some ((n : Int) + 1), some j))).writes ts =
      .ok (M, (1, t) :: rest) := by
  obtain ⟨M, recs, h1, h2⟩ := C101_steps (f := f) (i := (n : Int) + 1) hj hts
  unfold Records at h2
  have hlt := (List.getElem?_eq_some_iff.1 ht).1
  have hsplit : ts = ts.take n ++ t :: ts.drop (n + 1) := by
    have := List.getElem_cons_drop (as := ts) hlt
    rw [(List.getElem?_eq_some_iff.1 ht).2] at this
    rw [this, List.take_append_drop]
  have hz : ts.zipIdx = (ts.take n).zipIdx ++ (t, n) :: (ts.drop (n + 1)).zipIdx (n + 1) := by
    conv_lhs => rw [hsplit]
    rw [List.zipIdx_append, List.zipIdx_cons, List.length_take, Nat.min_eq_left hlt.le]
    simp
  have hnil : (ts.take n).zipIdx.filter (fun x => Requested f ((n : Int) + 1 - 1) j x.2) = [] := by
    apply List.filter_eq_nil_iff.2
    intro x hx
    have hx := List.snd_lt_of_mem_zipIdx hx
    rw [List.length_take] at hx
    rw [decide_eq_true_iff]
    rintro ⟨_, _, h, _⟩
    omega
  rw [hz, List.filter_append, hnil, List.nil_append,
    List.filter_cons_of_pos (by simpa [Requested] using ⟨hf, hn, hnj⟩)] at h2
  rw [h1, h2]
  exact ⟨_, _, rfl⟩

/-- Every second step is asked for, from the fifth to the seventh: steps 4 and 6 are written. -/
example : ¬ Requested 2 5 7 4 ∧ Requested 2 (5 - 1) 7 4 ∧ Requested 2 (5 - 1) 7 6 := by
  unfold Requested
  refine ⟨by omega, ?_, ?_⟩ <;> decide

/-- The initial configuration is written unless the initial output step is above 1; by default it is
written and there is no output without a frequency. -/
theorem C101_default {ts : List ℝ} (hts : (ts.length : Int) ≤ Explicit.intMax) (f : Option Int) :
    ∃ M recs, (Manager.create (some (f, none, none))).writes ts = .ok (M, recs) ∧
      Records (fun s => ∃ g ∈ f, 0 < g ∧ g ∣ s) ts recs := by
  refine ⟨_, _, writes_ok ts rfl (n := 0) (e := 0) rfl rfl (by simpa using hts) ?_, ?_⟩
  · simp only [Manager.create, Option.getD_none]
    omega
  unfold Records
  congr 3
  apply List.filter_congr
  intro x hx
  rw [decide_eq_decide]
  have hx := List.snd_lt_of_mem_zipIdx hx
  unfold Sel
  simp only [Manager.create, Option.getD_none]
  cases f with
  | none =>
    simp only [Option.getD_none]
    constructor
    · rintro ⟨_, _, h, _⟩; omega
    · rintro ⟨g, hg, _⟩; cases hg
  | some g =>
    simp only [Option.getD_some]
    constructor
    · rintro ⟨_, _, h3, h4⟩; exact ⟨g, rfl, h3, h4⟩
    · rintro ⟨g', hg, h1, h2⟩
      cases hg
      refine ⟨by omega, by omega, h1, h2⟩

/-- Without output parameters nothing is written. -/
theorem C101_none (ts : List ℝ) : ∃ M, (Manager.create none).writes ts = .ok (M, []) := by
  refine ⟨Manager.create none, ?_⟩
  induction ts with
  | nil => rfl
  | cons t ts ih =>
    have h : (Manager.create none).write t = .ok (Manager.create none, []) := if_pos rfl
    rw [Manager.writes, h, Outcome.ok_bind]
    simp only
    rw [ih]
    rfl

/-! ## C102: the output of several solvers -/

/-- The configurations of a later solver are counted from the beginning of the analysis: `before` are
the configurations of the solvers before, step `s` of the solver is written if the frequency divides
`before.length + s`. -/
theorem C102_steps {f : Int} (hf : 0 < f) {before ts : List ℝ}
    (hts : ((before ++ ts).length : Int) ≤ Explicit.intMax) :
    ∃ M recs recs', (Manager.create (some (some f, none, none))).writes (before ++ ts) =
        .ok (M, recs ++ recs') ∧
      Records (fun s => f ∣ s) before recs ∧
      recs'.map Prod.snd = (ts.zipIdx.filter fun x => f ∣ ((before.length + x.2 : Nat) : Int)).map
        Prod.fst := by
  obtain ⟨M, recs, h1, h2⟩ := C101_default hts (some f)
  have hP : (fun s : Nat => ∃ g ∈ some f, 0 < g ∧ g ∣ (s : Int)) = fun s : Nat => f ∣ (s : Int) := by
    funext s
    apply propext
    constructor
    · rintro ⟨g, hg, _, h⟩; cases hg; exact h
    · intro h; exact ⟨f, rfl, hf, h⟩
  rw [hP] at h2
  unfold Records at h2
  rw [List.zipIdx_append, List.filter_append, List.map_append, List.zipIdx_append,
    List.map_append] at h2
  refine ⟨M, _, _, by rw [h1, h2], rfl, ?_⟩
  rw [List.map_map]
  have e : ∀ (l : List ℝ) (k : Nat), (l.zipIdx k).map
      (Prod.snd ∘ fun x : ℝ × Nat => ((x.2 : Int) + 1, x.1)) = l := by
    intro l
    induction l with
    | nil => intro k; rfl
    | cons a l ih => intro k; rw [List.zipIdx_cons, List.map_cons, ih]; rfl
  rw [e, zero_add]
  have e2 : ∀ (l : List ℝ) (k m : Nat), ((l.zipIdx (m + k)).filter fun x => f ∣ (x.2 : Int)).map Prod.fst =
      ((l.zipIdx k).filter fun x => f ∣ ((m + x.2 : Nat) : Int)).map Prod.fst := by
    intro l
    induction l with
    | nil => intro k m; rfl
    | cons a l ih =>
      intro k m
      rw [List.zipIdx_cons, List.zipIdx_cons, List.filter_cons, List.filter_cons]
      have := ih (k + 1) m
      rw [show m + (k + 1) = m + k + 1 by omega] at this
      by_cases hd : f ∣ ((m + k : Nat) : Int)
      · rw [if_pos (by simpa using hd), if_pos (by simpa using hd), List.map_cons, List.map_cons, this]
      · rw [if_neg (by simpa using hd), if_neg (by simpa using hd), this]
  have := e2 ts 0 before.length
  rw [add_zero] at this
  rw [← this]
  congr 1
  apply List.filter_congr
  intro x _
  rw [decide_eq_decide]

/-- C102, if the frequency divides the number of configurations of the solvers before: the initial
configuration and every `f`-th step of the solver are written.

What is missing: other numbers of configurations, see `C102_shift`. -/
theorem C102_partial {f : Int} (hf : 0 < f) {before ts : List ℝ} (hd : f ∣ (before.length : Int))
    (hts : ((before ++ ts).length : Int) ≤ Explicit.intMax) :
    ∃ M recs recs', (Manager.create (some (some f, none, none))).writes (before ++ ts) =
        .ok (M, recs ++ recs') ∧
      Records (fun s => f ∣ s) before recs ∧
      recs'.map Prod.snd = (ts.zipIdx.filter fun x => f ∣ (x.2 : Int)).map Prod.fst := by
  obtain ⟨M, recs, recs', h1, h2, h3⟩ := C102_steps hf hts
  refine ⟨M, recs, recs', h1, h2, ?_⟩
  rw [h3]
  congr 2
  funext x
  rw [decide_eq_decide]
  push_cast
  exact (Int.dvd_add_right hd)

/-- When a solver makes `f * k` steps, so that its final configuration is written, the next solver
writes its steps `f - 1`, `2 * f - 1`, ... -/
theorem C102_shift {f : Nat} (hf : 0 < f) {k : Nat} {before ts : List ℝ}
    (hb : before.length = f * k + 1) (hts : ((before ++ ts).length : Int) ≤ Explicit.intMax) :
    ∃ M recs recs', (Manager.create (some (some (f : Int), none, none))).writes (before ++ ts) =
        .ok (M, recs ++ recs') ∧
      Records (fun s => (f : Int) ∣ s) before recs ∧
      recs'.map Prod.snd = (ts.zipIdx.filter fun x => f ∣ x.2 + 1).map Prod.fst := by
  obtain ⟨M, recs, recs', h1, h2, h3⟩ := C102_steps (f := f) (by exact_mod_cast hf) hts
  refine ⟨M, recs, recs', h1, h2, ?_⟩
  rw [h3]
  congr 2
  funext x
  rw [decide_eq_decide, Int.natCast_dvd_natCast, hb, add_assoc, Nat.dvd_add_right (Nat.dvd_mul_right f k),
    add_comm 1]

/-- Two steps, every second one written: the final configuration of the first solver is written, the
initial one of the second and its step 2 are not, its step 1 is. -/
example : (((([0, 1, 2] : List ℝ).length = 2 * 1 + 1 ∧ ¬ 2 ∣ 0 + 1) ∧ ¬ 2 ∣ 2 + 1) ∧ 2 ∣ 1 + 1) := by
  refine ⟨⟨⟨rfl, ?_⟩, ?_⟩, ?_⟩ <;> decide

end Verif.Outputs
