import Verif.Correspondence.StartLemmas

/-!
# Correspondence materials: stretching back and forth, and the beginning of an analysis (C210, C211, C212)
-/

noncomputable section

namespace Verif.Correspondence

open Verif Verif.Neigh Verif.Mech Verif.Tensor Matrix
open scoped Classical

/-! ### A body that can be stretched -/

/-- The corner with the elastic material can be evaluated for every stretch. -/
theorem corner_elastic_at (bulk shear hc dt a : ℝ) (ha : a ≠ 0) (v : Nat → V3) (s : State) :
    ∃ r, computeForce cornerBody (elasticMaterial bulk shear hc) dt (stretched a) v s blank
      cornerList.length (encode cornerList) = .ok r := by
  refine computeForce_defined _ _ _ _ _ _ _ _ ?_ ?_ ?_ ?_
  · intro p ns h
    obtain ⟨rfl, rfl⟩ := corner_get h
    rw [← shapeTensor_point cornerBody cornerList h, corner_shape, toMatrix_identity]
    simp
  · intro p ns h
    obtain ⟨rfl, rfl⟩ := corner_get h
    rw [corner_shape, invert_identity, corner_first, determinant_eq, toMatrix_mm, toMatrix_identity,
      Matrix.mul_one, ← determinant_eq]
    simp [determinant, ha]
  · rintro p j ⟨ns, h, hj⟩
    obtain ⟨rfl, rfl⟩ := corner_get h
    exact ⟨one_ne_zero, corner_len j hj a ha⟩
  · exact fun d => ⟨_, rfl⟩

theorem corner_start : initialState cornerBody cornerBody.x cornerList.length (encode cornerList)
    blank.shape = .ok ⟨fun _ => identity, fun _ => identity, fun _ => zero⟩ := by
  unfold initialState
  rw [visited_encode]
  simp only [Outcome.ok_bind]
  rw [if_neg]
  rw [not_not]
  unfold shapeAndGradient
  refine (shape_code cornerBody cornerBody.x (bondsOf cornerList) (List.range cornerList.length)
    ⟨0, blank.shape.inv, blank.shape.grad⟩).mpr ⟨rfl, fun p hp => ?_⟩
  have : p = 0 := by
    have := List.mem_range.mp hp
    simp [cornerList] at this
    exact this
  subst this
  rw [corner_shape, determinant_eq, toMatrix_identity]
  simp

theorem along_unit (a : ℝ) (x : V3) : along 1 (fun _ => a) *ᵥ x = a • x := by
  unfold along
  rw [Matrix.one_mul, transpose_one, Matrix.mul_one]
  funext i
  rw [mulVec_diagonal, Pi.smul_apply, smul_eq_mul]

theorem orthogonal_one : (1 : Mat)ᵀ * 1 = 1 := by simp

/-- The corner stretched to `a` and back, in two steps. -/
theorem corner_cycle (bulk shear hc a : ℝ) (ha : a ≠ 0) :
    ∃ s hist, StretchRun cornerBody (elasticMaterial bulk shear hc) cornerList 1
      ⟨fun _ => identity, fun _ => identity, fun _ => zero⟩ (fun _ => 1) s
      [fun _ => 1, fun _ => a, fun _ => 1] hist := by
  obtain ⟨r, hr⟩ := corner_elastic_at bulk shear hc 1 a ha (fun k => stretched a k - stretched 1 k)
    ⟨fun _ => identity, fun _ => identity, fun _ => zero⟩
  obtain ⟨r', hr'⟩ := corner_elastic_at bulk shear hc 1 1 one_ne_zero
    (fun k => stretched 1 k - stretched a k) r.next
  refine ⟨_, _, .step 1 (fun _ => 1) 0 0 (stretched 1) (fun k => stretched 1 k - stretched a k) blank
    (.step 1 (fun _ => a) 0 0 (stretched a) (fun k => stretched a k - stretched 1 k) blank .start
      one_ne_zero ?_ ?_ hr) one_ne_zero ?_ ?_ hr'⟩
  · intro k; rw [along_unit, zero_add]; rfl
  · intro k; rw [along_unit, zero_add, one_smul]; rfl
  · intro k; rw [along_unit, zero_add]; rfl
  · intro k; rw [along_unit, zero_add, one_smul]; rfl

/-! ### C210 -/

/-- **C210**, what the stress is: in any history of homogeneous stretches with fixed principal directions,
the stress of every point is Hooke's law of the sum of the stretch increments, each relative to the
stretch at the end of its step; the Cauchy stress in the output is the same. -/
theorem C210_stress_partial (B : Body) (bulk shear hc : ℝ) (nbs : List (List Nat)) (Q : Mat)
    (s0 s : State) (l0 : V3) (path : List V3) (hist : List Result) (old : Shape) (hQ : Qᵀ * Q = 1)
    (h0 : initialState B B.x nbs.length (encode nbs) old = .ok s0)
    (hrun : StretchRun B (elasticMaterial bulk shear hc) nbs Q s0 l0 s path hist)
    (hpos : ∀ l ∈ path, ∀ i, 0 < l i) (p : Nat) (hp : p < nbs.length) :
    (s.stress p).toMatrix = hooke bulk shear (along Q (increments path)) ∧
    ∀ r ∈ hist.head?, r.cauchy p = s.stress p := by
  have e := initialState_ok h0
  obtain ⟨_, _, h3, h4⟩ := stretch_state hQ hrun hpos hp (by rw [e]) (by rw [e]) (by rw [e])
  exact ⟨h3, fun r hr => by rw [(h4 r hr).1, (h4 r hr).2]⟩

/-- **C210**, accuracy: every principal strain that enters the stress is at most the logarithmic strain
since the beginning, and falls short of it by at most the coarseness of the steps. -/
theorem C210_strain_partial (B : Body) (M : Material) (nbs : List (List Nat)) (Q : Mat) (s0 s : State)
    (l0 l : V3) (path : List V3) (hist : List Result)
    (hrun : StretchRun B M nbs Q s0 l0 s (l :: path) hist)
    (hpos : ∀ m ∈ l :: path, ∀ i, 0 < m i) (i : Fin 3) :
    increments (l :: path) i ≤ Real.log (l i / l0 i) ∧
    Real.log (l i / l0 i) ≤ increments (l :: path) i + coarseness (l :: path) i := by
  have hl := run_last hrun
  have p0 : 0 < l0 i := hpos l0 (List.mem_of_getLast? hl) i
  have pl := hpos l List.mem_cons_self i
  rw [Real.log_div pl.ne' p0.ne']
  obtain ⟨h1, h2, _⟩ := increments_bounds l path l0 hl hpos i
  exact ⟨h1, h2⟩

/-- **C210**, closed paths: an elastic body that is stretched in any way and brought back to where it
started is under pressure, whatever the steps. -/
theorem C210_cycle (B : Body) (bulk shear hc : ℝ) (nbs : List (List Nat)) (Q : Mat) (s0 s : State)
    (l0 : V3) (path : List V3) (hist : List Result) (old : Shape) (hb : 0 < bulk) (hQ : Qᵀ * Q = 1)
    (h0 : initialState B B.x nbs.length (encode nbs) old = .ok s0)
    (hrun : StretchRun B (elasticMaterial bulk shear hc) nbs Q s0 l0 s (l0 :: path) hist)
    (hpos : ∀ l ∈ l0 :: path, ∀ i, 0 < l i) (hne : ∃ l ∈ path, l ≠ l0) (p : Nat)
    (hp : p < nbs.length) : (s.stress p).toMatrix.trace < 0 := by
  obtain ⟨h1, _⟩ := C210_stress_partial B bulk shear hc nbs Q s0 s l0 (l0 :: path) hist old hQ h0 hrun
    hpos p hp
  have hl := run_last hrun
  have bound : ∀ i, increments (l0 :: path) i ≤ 0 := fun i => by
    have := (increments_bounds l0 path l0 hl hpos i).1
    rwa [sub_self] at this
  obtain ⟨l, hlm, hln⟩ := hne
  obtain ⟨i, hi⟩ := Function.ne_iff.mp hln
  have strict : increments (l0 :: path) i < 0 := by
    have := (increments_bounds l0 path l0 hl hpos i).2.2 ⟨l, List.mem_cons_of_mem _ hlm, hi⟩
    rwa [sub_self] at this
  rw [h1, hooke_trace, along_trace hQ]
  have b0 := bound 0
  have b1 := bound 1
  have b2 := bound 2
  have hsum : increments (l0 :: path) 0 + increments (l0 :: path) 1 + increments (l0 :: path) 2 < 0 := by
    fin_cases i
    · have : increments (l0 :: path) 0 < 0 := strict
      linarith
    · have : increments (l0 :: path) 1 < 0 := strict
      linarith
    · have : increments (l0 :: path) 2 < 0 := strict
      linarith
  exact mul_neg_of_pos_of_neg (by linarith) hsum

example : ∃ s hist, StretchRun cornerBody (elasticMaterial 5 3 1) cornerList 1
    ⟨fun _ => identity, fun _ => identity, fun _ => zero⟩ (fun _ => 1) s
    [fun _ => 1, fun _ => 2, fun _ => 1] hist ∧ (s.stress 0).toMatrix.trace < 0 := by
  obtain ⟨s, hist, h⟩ := corner_cycle 5 3 1 2 two_ne_zero
  refine ⟨s, hist, h, C210_cycle _ 5 3 1 _ 1 _ s _ _ hist _ (by norm_num) orthogonal_one corner_start h
    ?_ ⟨fun _ => 2, by simp, ?_⟩ 0 (by decide)⟩
  · intro l hl i
    simp only [List.mem_cons, List.not_mem_nil, or_false] at hl
    rcases hl with rfl | rfl | rfl <;> norm_num
  · intro h
    have := congrFun h 0
    norm_num at this

/-- The path of the example: 1, 2, 1; the increments are 1/2 and -1. -/
example : (increments [fun _ => 1, fun _ => 2, fun _ => 1] = fun _ => -(1 / 2)) ∧
    coarseness [fun _ => 1, fun _ => 2, fun _ => 1] = fun _ => 1 := by
  refine ⟨?_, ?_⟩ <;> funext i <;> simp only [increments, coarseness, Pi.zero_apply] <;> norm_num

/-- **C210 is false of the code**: a body stretched to twice its size and back is not free of stress. -/
theorem C210_not_elastic : ¬ ElasticReturns := by
  intro hall
  obtain ⟨s, hist, h⟩ := corner_cycle 5 3 1 2 two_ne_zero
  have hpos : ∀ l ∈ [(fun _ => 1 : V3), fun _ => 2, fun _ => 1], ∀ i, 0 < l i := by
    intro l hl i
    simp only [List.mem_cons, List.not_mem_nil, or_false] at hl
    rcases hl with rfl | rfl | rfl <;> norm_num
  have hz := hall cornerBody 5 3 1 cornerList 1 _ s (fun _ => 1) [fun _ => 2, fun _ => 1] hist
    blank.shape (by norm_num) (by norm_num) orthogonal_one corner_start h hpos 0 (by decide)
  have hc := C210_cycle _ 5 3 1 _ 1 _ s _ _ hist blank.shape (by norm_num) orthogonal_one corner_start h
    hpos ⟨fun _ => 2, by simp, by
      intro h
      have := congrFun h 0
      norm_num at this⟩ 0 (by decide)
  rw [hz] at hc
  simp at hc

/-! ### C211 -/

theorem bondForce_zero (B : Body) (t : M9) (b : Bond) (ht : t.toMatrix = 0) : bondForce B t b = 0 := by
  rw [bondForce_eq, ht]
  simp

theorem scatter_zero (vi vj : Bond → ℝ) (F : Nat → V3) (b : Bond) (k : Nat) :
    scatterStep vi vj F b 0 k = F k := by
  unfold scatterStep
  simp

/-- Without stress there are no forces. -/
theorem force_zero (B : Body) (bonds : List Bond) (k : Shape) (sigma : Nat → M9) (ps : List Nat)
    (hz : ∀ p ∈ ps, (sigma p).toMatrix = 0) (s f : Forces)
    (h : ps.foldlM (forcePoint B bonds k sigma) s = .ok f) (q : Nat) : f.force q = s.force q := by
  induction ps generalizing s with
  | nil => cases h; rfl
  | cons p ps ih =>
    obtain ⟨s', h1, h2⟩ := BC.foldlM_cons_ok.mp h
    rw [ih (fun q hq => hz q (List.mem_cons_of_mem _ hq)) s' h2]
    unfold forcePoint at h1
    split at h1
    · exact absurd h1 (by simp)
    · cases h1
      have ht : (matrixMultiply false false 1 (piola (k.grad p) (sigma p)) (k.inv p)).toMatrix = 0 := by
        rw [toMatrix_mm]
        unfold piola
        rw [toMatrix_mmT, hz p List.mem_cons_self]
        simp
      have : ∀ (bs : List Bond) (s : Forces), (bs.foldl (forceBond B
          (matrixMultiply false false 1 (piola (k.grad p) (sigma p)) (k.inv p))) s).force q =
          s.force q := by
        intro bs
        induction bs with
        | nil => intro s; rfl
        | cons b bs ihb =>
          intro s
          rw [List.foldl_cons, ihb]
          unfold forceBond
          simp only
          rw [bondForce_zero B _ b ht, scatter_zero]
      exact this _ _

/-- The elastic material is quiet. -/
theorem elastic_quiet (bulk shear hc : ℝ) (n : Nat) : Quiet (elasticMaterial bulk shear hc) n := by
  intro dt D s t h p _ hD hs
  have e : t p = elasticPoint bulk shear dt none (D p) (s p) := by
    have := BC.ok_inj h
    rw [← this]
  rw [e, elasticPoint_eq, hD, hs]
  simp [hooke]

/-- **C211**: a body displaced in any way by an initial condition has no stress at all: at the beginning,
if it rests or moves rigidly, its stresses are zero at every point, and the forces are the hourglass
forces alone. -/
theorem C211_displaced (B : Body) (M : Material) (dt : ℝ) (nbs : List (List Nat))
    (displace : (Nat → V3) → Nat → V3) (s : State) (y v : Nat → V3) (old : Stale) (r : Result)
    (hM : Quiet M nbs.length)
    (h0 : begin B displace nbs.length (encode nbs) old.shape = .ok (s, y))
    (h : computeForce B M dt y v s old nbs.length (encode nbs) = .ok r)
    (c w : V3) (hv : ∀ k, v k = c + crossProduct w (y k)) :
    (∀ p < nbs.length, (r.stress p).toMatrix = 0 ∧ (r.cauchy p).toMatrix = 0) ∧
    ∀ k, r.total k = r.hourglass k := by
  obtain ⟨e, _⟩ := begin_ok h0
  obtain ⟨_, _, _, _, h5, h6, h7, _⟩ := computeForce_ok h
  have hst : ∀ p < nbs.length, (r.stress p).toMatrix = 0 := fun p hp =>
    hM dt _ _ _ h5 p hp (C80_rigid B M dt y v s old nbs r h c w hv p hp) (by rw [e]; exact toMatrix_zero)
  have hca : ∀ p < nbs.length, (r.cauchy p).toMatrix = 0 := by
    intro p hp
    rw [h6]
    unfold rotateStress
    rw [toMatrix_mm, toMatrix_mmT, hst p hp]
    simp
  refine ⟨fun p hp => ⟨hst p hp, hca p hp⟩, fun k => ?_⟩
  have := force_zero B (bondsOf nbs) r.shape r.cauchy _ (fun p hp => hca p (List.mem_range.mp hp)) _ _ h7 k
  unfold Result.total
  rw [this]
  exact add_zero _

/-- **C211**, homogeneous displacements: there are no forces either, so a body at rest stays as it was
displaced. -/
theorem C211_homogeneous (B : Body) (M : Material) (dt : ℝ) (nbs : List (List Nat)) (A : Mat) (a : V3)
    (s : State) (y : Nat → V3) (old : Stale) (r : Result) (hM : Quiet M nbs.length)
    (h0 : begin B (fun x k => a + A *ᵥ x k) nbs.length (encode nbs) old.shape = .ok (s, y))
    (h : computeForce B M dt y 0 s old nbs.length (encode nbs) = .ok r) : ∀ k, r.total k = 0 := by
  obtain ⟨_, e⟩ := begin_ok h0
  obtain ⟨_, h2⟩ := C211_displaced B M dt nbs _ s y 0 old r hM h0 h 0 0 (fun k => by simp)
  intro k
  rw [h2 k]
  refine (C75_affine B M dt y 0 s old nbs r h fun p ns _ => ⟨A, fun j _ => ?_⟩).1 k
  rw [e, mulVec_sub]
  show a + A *ᵥ B.x j - (a + A *ᵥ B.x p) = _
  abel

theorem corner_displaced : begin cornerBody (fun x k => along 1 (fun _ => 2) *ᵥ x k) cornerList.length
    (encode cornerList) blank.shape =
    .ok (⟨fun _ => identity, fun _ => identity, fun _ => zero⟩, stretched 2) := by
  unfold begin
  simp only
  rw [corner_start]
  simp only [Outcome.ok_bind]
  congr 2
  funext k
  rw [along_unit]
  rfl

example : ∃ r, computeForce cornerBody (elasticMaterial 5 3 1) 1 (stretched 2) 0
    ⟨fun _ => identity, fun _ => identity, fun _ => zero⟩ blank cornerList.length
    (encode cornerList) = .ok r ∧ (r.stress 0).toMatrix = 0 := by
  obtain ⟨r, h⟩ := corner_elastic_at 5 3 1 1 2 two_ne_zero 0
    ⟨fun _ => identity, fun _ => identity, fun _ => zero⟩
  exact ⟨r, h, ((C211_displaced _ _ _ _ _ _ _ _ _ r (elastic_quiet 5 3 1 _) corner_displaced h 0 0
    (fun k => by simp)).1 0 (by decide)).1⟩

example : begin cornerBody (fun x k => 0 + along 1 (fun _ => 2) *ᵥ x k) cornerList.length
    (encode cornerList) blank.shape =
    .ok (⟨fun _ => identity, fun _ => identity, fun _ => zero⟩, stretched 2) := by
  simp only [zero_add]
  exact corner_displaced

/-- **C211 is false of the code**: a body whose initial condition doubles its size has no stress. -/
theorem C211_no_stress : ¬ InitialStress := by
  intro hall
  obtain ⟨r, h⟩ := corner_elastic_at 5 3 1 1 2 two_ne_zero 0
    ⟨fun _ => identity, fun _ => identity, fun _ => zero⟩
  obtain ⟨p, hp, hne⟩ := hall cornerBody 5 3 1 1 cornerList 1 (fun _ => 2) _ _ blank r (by norm_num)
    (by norm_num) orthogonal_one (fun _ => by norm_num) (by
      intro h
      have := congrFun h 0
      norm_num at this) corner_displaced h
  exact hne ((C211_displaced _ _ _ _ _ _ _ _ _ r (elastic_quiet 5 3 1 _) corner_displaced h 0 0
    (fun k => by simp)).1 p hp).1

/-- **C211**, the analysis begins exactly if the shape tensor of every point with a neighbor list can be inverted,
whatever the initial displacements; otherwise the program ends. -/
theorem C211_begins (B : Body) (nbs : List (List Nat)) (displace : (Nat → V3) → Nat → V3) (old : Shape) :
    ((∃ r, begin B displace nbs.length (encode nbs) old = .ok r) ↔
      ∀ p ns, nbs[p]? = some ns → (shapeOf B p ns).det ≠ 0) ∧
    ((∃ p ns, nbs[p]? = some ns ∧ (shapeOf B p ns).det = 0) →
      begin B displace nbs.length (encode nbs) old = .fail .terminate) := by
  have key : (shapeAndGradient B B.x nbs.length (bondsOf nbs) old.inv old.grad).code = 0 ↔
      ∀ p ns, nbs[p]? = some ns → (shapeOf B p ns).det ≠ 0 := by
    unfold shapeAndGradient
    rw [shape_code]
    constructor
    · rintro ⟨-, h⟩ p ns hp
      rw [← shapeTensor_point B nbs hp, ← determinant_eq]
      exact h p (List.mem_range.2 (List.getElem?_eq_some_iff.1 hp).1)
    · refine fun h => ⟨rfl, fun p hp => ?_⟩
      have hp' := List.mem_range.1 hp
      have hg : nbs[p]? = some nbs[p] := List.getElem?_eq_getElem hp'
      rw [determinant_eq, shapeTensor_point B nbs hg]
      exact h p _ hg
  have e : begin B displace nbs.length (encode nbs) old =
      (if (shapeAndGradient B B.x nbs.length (bondsOf nbs) old.inv old.grad).code ≠ 0 then Outcome.fail .terminate
        else .ok ((⟨fun _ => identity, fun _ => identity, fun _ => zero⟩ : State), displace B.x)) := by
    unfold begin initialState
    rw [visited_encode]
    simp only [Outcome.ok_bind]
    split <;> rfl
  rw [e]
  constructor
  · rw [← key]
    constructor
    · rintro ⟨r, h⟩
      by_contra hne
      rw [if_pos hne] at h
      cases h
    · intro h
      exact ⟨_, if_neg (not_not.2 h)⟩
  · rintro ⟨p, ns, hp, hd⟩
    exact if_pos fun h => key.1 h p ns hp hd

example : ∃ r, begin cornerBody id cornerList.length (encode cornerList) blank.shape = .ok r := by
  unfold begin
  simp only
  exact ⟨_, by rw [corner_start]; rfl⟩

/-- A point with no neighbors. -/
example (B : Body) (d : (Nat → V3) → Nat → V3) (old : Shape) :
    begin B d [([] : List Nat)].length (encode [[]]) old = .fail .terminate :=
  (C211_begins B [[]] d old).2 ⟨0, [], rfl, by simp [shapeOf]⟩

/-! ### C212 -/

/-- **C212**: at time zero the stress of an elastic body whose initial velocities have a symmetric
gradient `G` at a point is that of the strain `dt G`, which it does not have yet. -/
theorem C212_velocities_partial (B : Body) (bulk shear hc dt : ℝ) (nbs : List (List Nat))
    (displace : (Nat → V3) → Nat → V3) (s : State) (y v : Nat → V3) (old : Stale) (r : Result)
    (h0 : begin B displace nbs.length (encode nbs) old.shape = .ok (s, y))
    (h : computeForce B (elasticMaterial bulk shear hc) dt y v s old nbs.length (encode nbs) = .ok r)
    (p : Nat) (ns : List Nat) (hp : nbs[p]? = some ns) (G : Mat) (hG : FlowingBy y v p ns G)
    (hs : Gᵀ = G) :
    (r.stress p).toMatrix = hooke bulk shear (dt • G) ∧ r.cauchy p = r.stress p := by
  obtain ⟨e, _⟩ := begin_ok h0
  subst e
  obtain ⟨_, _, h3, h4⟩ := elastic_step h hp hG hs (by
    show (G * identity.toMatrix)ᵀ = G * identity.toMatrix
    rw [toMatrix_identity, Matrix.mul_one, hs]) rfl
  refine ⟨?_, h4⟩
  rw [h3]
  show (Tensor.zero).toMatrix + _ = _
  rw [toMatrix_zero, zero_add]

theorem corner_reference : begin cornerBody id cornerList.length (encode cornerList) blank.shape =
    .ok (⟨fun _ => identity, fun _ => identity, fun _ => zero⟩, stretched 1) := by
  unfold begin
  simp only
  rw [corner_start]
  simp only [Outcome.ok_bind]
  congr 2
  funext k
  show cornerBody.x k = (1 : ℝ) • cornerBody.x k
  rw [one_smul]

theorem corner_expanding : FlowingBy (stretched 1) (stretched 1) 0 [1, 2, 3] (1 : Mat) := by
  intro j _
  rw [one_mulVec]

/-- **C212 is false of the code**: an expanding body in its reference configuration has a stress at time
zero, in proportion to the length of the time step. -/
theorem C212_not_free : ¬ StressFreeStart := by
  intro hall
  obtain ⟨r, h⟩ := corner_elastic_at 5 3 1 1 1 one_ne_zero (stretched 1)
    ⟨fun _ => identity, fun _ => identity, fun _ => zero⟩
  have hz := hall cornerBody 5 3 1 1 cornerList (stretched 1) _ _ blank r (by norm_num) (by norm_num)
    one_pos corner_reference h 0 (by decide)
  have hc := (C212_velocities_partial cornerBody 5 3 1 1 cornerList id _ _ _ blank r corner_reference h 0
    _ rfl 1 corner_expanding (by simp)).1
  rw [hz] at hc
  have := congrArg Matrix.trace hc
  rw [hooke_trace, trace_smul_one] at this
  simp at this

example : ∃ r, computeForce cornerBody (elasticMaterial 5 3 1) 1 (stretched 1) (stretched 1)
    ⟨fun _ => identity, fun _ => identity, fun _ => zero⟩ blank cornerList.length
    (encode cornerList) = .ok r ∧ (r.stress 0).toMatrix = hooke 5 3 ((1 : ℝ) • (1 : Mat)) := by
  obtain ⟨r, h⟩ := corner_elastic_at 5 3 1 1 1 one_ne_zero (stretched 1)
    ⟨fun _ => identity, fun _ => identity, fun _ => zero⟩
  exact ⟨r, h, (C212_velocities_partial cornerBody 5 3 1 1 cornerList id _ _ _ blank r corner_reference h 0
    _ rfl 1 corner_expanding (by simp)).1⟩

end Verif.Correspondence
