import Verif.Assoc.PlasticLemmas

/-!
# The perfectly plastic bond-associated correspondence material (C242, C243)
-/

noncomputable section

namespace Verif.Assoc

open Verif Verif.Neigh Verif.Mech Verif.Tensor Matrix
open Verif.Correspondence (perfectPoint PlasticOut vonMises hooke)
open Verif.Return (Fields MatState)
open scoped Classical

/-! ### A case: the tetrahedron is sheared, flows, and then rotates -/

/-- The analysis makes a step with the given motion. -/
theorem tetra_plastic {D : Decompose} (hD : D.Correct) {bulk shear yield : ℝ} (hs : shear ≠ 0) {s : State} {o : Shown} {e : Strains}
    (h : PlasticRun tetra D 1 bulk shear yield (fun _ => 0) tetraNbs (Tame tetraNbs) (fun _ => 0) s o e) (dt : ℝ) {u y v : Nat → V3}
    (g : Ghosts) {F A : Matrix (Fin 3) (Fin 3) ℝ} {f a : V3} (hF : F.det ≠ 0) (hu : ∀ k, u k = y k - tetra.x k)
    (hy : ∀ k, y k = F *ᵥ tetra.x k + f) (hv : ∀ k, v k = A *ᵥ tetra.x k + a) :
    ∃ q, perfectEvaluation tetra D 1 bulk shear yield dt intact u y v g s o e tetraNbs.length (encode tetraNbs) = .ok q := by
  have hr := plastic_run h
  obtain ⟨r, hr⟩ := affine_defined hD one_ne_zero (update_total (bulk := bulk) (yield := yield) hs (places tetraNbs)) tetra_within
    (sound_run (hr.mono fun _ _ a => a.reported)) dt
    intact_tame.reported g tetra_horizon (fun _ hp => tetra_placed (fun _ => rfl) hp) hF hu hy hv tetra_distinct (tetra_volume hr)
  obtain ⟨q, hq, -⟩ := plastic_defined hs o e hr
  exact ⟨q, hq⟩

/-- Growth, followed by a shear that rotates. -/
theorem plastic_case : ∃ D : Decompose, D.Correct ∧ ∃ s o e,
    PlasticRun tetra D 1 3 1 1 (fun _ => 0) tetraNbs (Tame tetraNbs) (fun _ => 0) s o e ∧ ∃ q,
      perfectEvaluation tetra D 1 3 1 1 1 intact u0 y0 v0 g0 s o e tetraNbs.length (encode tetraNbs) = .ok q := by
  obtain ⟨D, hD⟩ := correct_exists
  obtain ⟨s, h, -⟩ := tetra_start D (elasticUpdate 3 1) (Tame tetraNbs)
  have hs : PlasticRun tetra D 1 3 1 1 (fun _ => 0) tetraNbs (Tame tetraNbs) (fun _ => 0) s shownStart strainsStart := .start h
  obtain ⟨q, hq⟩ := tetra_plastic hD one_ne_zero hs 1 g0 (F := shear0) (A := shear0) (f := 0) (a := 0)
    (u := u0) (y := y0) (v := y0)
    (by simp [shear0, det_fin_three]) (fun _ => rfl) (fun _ => rfl) fun k => rfl
  have h1 := PlasticRun.step hs intact_tame hq
  obtain ⟨q', hq'⟩ := tetra_plastic hD one_ne_zero h1 1 g0 (F := shear0) (A := spin0 * shear0) (f := 0) (a := spin0 *ᵥ 0 + 0)
    (u := u0) (y := y0) (v := v0)
    (by simp [shear0, det_fin_three]) (fun _ => rfl) (fun _ => rfl)
    fun k => by rw [v0, y0, mulVec_add, mulVec_mulVec, add_assoc]
  exact ⟨D, hD, _, _, _, h1, q', hq'⟩

/-! ### C242 -/

theorem point_step {bulk shear yield dt : ℝ} (hy : 0 ≤ yield) {D : Nat → M9} {old f : Fields} {k : Nat} {o : PlasticOut}
    (h : Flowed bulk shear yield dt D old f k o) :
    Returned bulk shear yield (dt • (D k).toMatrix) (old.stress k).toMatrix (f.stress k).toMatrix (old.eqps k) (f.eqps k)
      (f.mises k) (f.triaxiality k) := by
  obtain ⟨a1, a2, a3, a4, a5, a6⟩ := Verif.Correspondence.C82_step bulk shear yield dt (D k) (old.stress k) (old.eqps k) o hy h.law
  rw [h.stress, h.eqps, h.mises, h.triaxiality]
  refine ⟨a5, a1, Verif.Correspondence.C82_on_surface bulk shear yield dt (D k) (old.stress k) (old.eqps k) o hy h.law, a3, a4, a6, a2, ?_⟩
  rw [Verif.Return.triaxialityOf, Verif.Correspondence.diagSum_eq, a2, Verif.Correspondence.mean, div_div]

/-- **C242** Each evaluation returns the stresses of all bonds and of all owned points to the yield surface, and records
their plastic strains, von Mises stresses and triaxialities. -/
theorem C242_step {B : Body} {D : Decompose} {order : Nat} {bulk shear yield dt : ℝ} (hy : 0 ≤ yield) {H : Harm} {u y v : Nat → V3}
    {g : Ghosts} {s : State} {o : Shown} {e : Strains} {nbs : List (List Nat)} {q : PlasticResult}
    (h : perfectEvaluation B D order bulk shear yield dt H u y v g s o e nbs.length (encode nbs) = .ok q) :
    (∀ k < (nbs.map List.length).sum, Returned bulk shear yield (dt • (q.result.kin.rate k).toMatrix) (s.stress k).toMatrix
      (q.result.stress k).toMatrix (e.bond k) (q.strains.bond k) (q.fields.bonds.mises k) (q.fields.bonds.triaxiality k)) ∧
    ∀ p < nbs.length, Returned bulk shear yield (dt • (q.written.rate p).toMatrix) (o.stress p).toMatrix
      (q.written.kept.stress p).toMatrix (e.node p) (q.strains.node p) (q.fields.nodes.mises p)
      (q.fields.nodes.triaxiality p) := by
  have hp := plastic_parts h
  obtain ⟨e1, e2⟩ := fields_stress hp
  constructor
  · intro k hk
    obtain ⟨o1, ho⟩ := (perfectAll_spec hp.bonds).1 k (mem_places.mpr hk)
    rw [← e1]
    exact point_step hy ho
  · intro p hk
    obtain ⟨o1, ho⟩ := (perfectAll_spec hp.nodes).1 p (List.mem_range.mpr hk)
    rw [← e2]
    exact point_step hy ho

example : ∃ (D : Decompose) (s : State) (o : Shown) (e : Strains) (q : PlasticResult),
    perfectEvaluation tetra D 1 3 1 1 1 intact u0 y0 v0 g0 s o e tetraNbs.length (encode tetraNbs) = .ok q ∧
    (tetraNbs.map List.length).sum = 12 := by
  obtain ⟨D, _, s, o, e, -, q, hq⟩ := plastic_case
  exact ⟨D, s, o, e, q, hq, rfl⟩

theorem von_mises_zero : vonMises (Tensor.zero).toMatrix = 0 := by
  rw [toMatrix_zero, vonMises, Verif.Correspondence.dev_zero, Verif.Correspondence.norm9_zero, mul_zero]

/-- **C242** In an analysis no von Mises stress of a bond or point exceeds the yield stress, and plastic strains are not
negative. -/
theorem C242_bound {B : Body} {D : Decompose} {order : Nat} {bulk shear yield : ℝ} (hy : 0 ≤ yield) {ghost : Nat → ℝ}
    {nbs : List (List Nat)} {A : (Nat → ℝ) → Harm → Prop} {d : Nat → ℝ} {s : State} {o : Shown} {e : Strains}
    (h : PlasticRun B D order bulk shear yield ghost nbs A d s o e) :
    (∀ k, vonMises (s.stress k).toMatrix ≤ yield ∧ 0 ≤ e.bond k) ∧
    ∀ p, vonMises (o.stress p).toMatrix ≤ yield ∧ 0 ≤ e.node p := by
  induction h with
  | start h =>
    refine ⟨fun k => ⟨?_, le_rfl⟩, fun p => ⟨von_mises_zero.le.trans hy, le_rfl⟩⟩
    unfold initialState at h
    rw [visited_encode, Outcome.ok_bind] at h
    obtain ⟨w, h1, h2⟩ := Outcome.bind_eq_ok.mp h
    split at h2
    · cases h2
    · cases h2
      exact von_mises_zero.le.trans hy
  | step _ _ h ih =>
    have hp := plastic_parts h
    obtain ⟨a, b⟩ := C242_step hy h
    obtain ⟨e1, e2⟩ := fields_stress hp
    constructor
    · intro k
      by_cases hk : k < (nbs.map List.length).sum
      · exact ⟨(a k hk).bound, (ih.1 k).2.trans (a k hk).grows⟩
      · obtain ⟨c1, -, c3, -⟩ := (perfectAll_spec hp.bonds).2 k (fun hm => hk (mem_places.mp hm))
        rw [e1] at c1
        exact ⟨(congrArg (fun m : M9 => vonMises m.toMatrix) c1).le.trans (ih.1 k).1, (ih.1 k).2.trans c3.ge⟩
    · intro k
      by_cases hk : k < nbs.length
      · exact ⟨(b k hk).bound, (ih.2 k).2.trans (b k hk).grows⟩
      · obtain ⟨c1, -, c3, -⟩ := (perfectAll_spec hp.nodes).2 k (fun hm => hk (List.mem_range.mp hm))
        rw [e2] at c1
        exact ⟨(congrArg (fun m : M9 => vonMises m.toMatrix) c1).le.trans (ih.2 k).1, (ih.2 k).2.trans c3.ge⟩
  | again _ _ h ih => exact ih

example : ∃ (D : Decompose) (s : State) (o : Shown) (e : Strains),
    PlasticRun tetra D 1 3 1 1 (fun _ => 0) tetraNbs (Tame tetraNbs) (fun _ => 0) s o e ∧ (0 : ℝ) ≤ 1 := by
  obtain ⟨D, _, s, o, e, h, -⟩ := plastic_case
  exact ⟨D, s, o, e, h, zero_le_one⟩

/-- **C242** If the shear modulus is not zero, the evaluation gives a result whenever that of the bond-associated material
does; it gives it in particular under the conditions of `C139_defined`. -/
theorem C242_defined {B : Body} {D : Decompose} {order : Nat} (ho : order ≠ 0) {bulk shear yield : ℝ} (hs : shear ≠ 0) (dt : ℝ)
    (H : Harm) (u y v : Nat → V3) (g : Ghosts) (s : State) (o : Shown) (e : Strains) {nbs : List (List Nat)}
    (hh : ∀ p < nbs.length, B.horizon p ≠ 0) {P : Pre}
    (hP : precompute B D order H u v nbs.length (bondsOf nbs) s.weights g = .ok P)
    (hdet : ∀ p < nbs.length, (P.grad p).toMatrix.det ≠ 0)
    (hb : ∀ b ∈ bondsOf nbs, 0 < P.weights.omega b.b → B.x b.i ≠ B.x b.j ∧ s.w0 b.i ≠ 0 ∧ s.w0 b.j ≠ 0 ∧
      (bondGradient B P.grad y b).toMatrix.det ≠ 0) :
    ∃ q, perfectEvaluation B D order bulk shear yield dt H u y v g s o e nbs.length (encode nbs) = .ok q := by
  obtain ⟨P', h1, h2⟩ := C139_defined ho (update_total (bulk := bulk) (yield := yield) hs (places nbs)) dt H u y v g s (D := D) hh
  rw [hP] at h1
  cases h1
  obtain ⟨r, hr⟩ := h2 hdet hb
  obtain ⟨q, hq, -⟩ := plastic_defined hs o e hr
  exact ⟨q, hq⟩

example : ∃ (D : Decompose) (s : State) (o : Shown) (e : Strains) (P : Pre),
    precompute tetra D 1 intact u0 v0 tetraNbs.length (bondsOf tetraNbs) s.weights g0 = .ok P ∧
    (∀ p < tetraNbs.length, (P.grad p).toMatrix.det ≠ 0) ∧
    (∀ b ∈ bondsOf tetraNbs, 0 < P.weights.omega b.b → tetra.x b.i ≠ tetra.x b.j ∧ s.w0 b.i ≠ 0 ∧ s.w0 b.j ≠ 0 ∧
      (bondGradient tetra P.grad y0 b).toMatrix.det ≠ 0) ∧
    ∃ q, perfectEvaluation tetra D 1 3 1 1 1 intact u0 y0 v0 g0 s o e tetraNbs.length (encode tetraNbs) = .ok q := by
  obtain ⟨D, hD, s, o, e, hs, q, hq⟩ := plastic_case
  have hs := plastic_run hs
  have hP := (evaluation_parts (plastic_parts hq).eval).1
  obtain ⟨h1, h2⟩ := affine_pre hD tetra_within (sound_run (hs.mono fun _ _ a => a.reported)) intact_tame.reported hP tetra_horizon
    (fun _ hp => tetra_placed (fun _ => rfl) hp) (F := shear0) (A := spin0 * shear0) (f := 0) (a := spin0 *ᵥ 0 + 0)
    (fun _ => rfl) (fun _ => rfl) fun k => by rw [v0, y0, mulVec_add, mulVec_mulVec, add_assoc]
  have hF : shear0.det ≠ 0 := by simp [shear0, det_fin_three]
  refine ⟨D, s, o, e, q.result.pre, hP, fun p hp => by rw [(h1 p hp).1]; exact hF, fun b hb _ => ?_, q, hq⟩
  obtain ⟨hi, hj⟩ := bonds_within tetra_within b hb
  exact ⟨tetra_distinct b hb, tetra_volume hs _ hi, tetra_volume hs _ hj, by rw [(h2 b hb).1]; exact hF⟩

/-- Without shear modulus a step that exceeds the yield stress is not defined. -/
theorem perfect_fluid {bulk yield dt : ℝ} {D sigma : M9} {eqps : ℝ}
    (ht : yield < vonMises (sigma.toMatrix + hooke bulk 0 (dt • D.toMatrix))) :
    perfectPoint bulk 0 yield dt D sigma eqps = .ub := by
  rw [← Verif.Correspondence.trial_eq, ← Verif.Correspondence.misesOf_dev] at ht
  unfold perfectPoint
  simp only
  rw [if_pos ht]
  simp

/-- **C242** Without shear modulus a step that exceeds the yield stress at a bond or point is not defined: a result of the loop
means that there is none. -/
theorem C242_fluid {bulk yield dt : ℝ} {D : Nat → M9} {old new f : Fields} {ks : List Nat}
    (h : perfectAll bulk 0 yield dt D old new ks = .ok f) {k : Nat} (hk : k ∈ ks) :
    vonMises ((old.stress k).toMatrix + hooke bulk 0 (dt • (D k).toMatrix)) ≤ yield := by
  by_contra hc
  obtain ⟨o1, ho⟩ := (perfectAll_spec h).1 k hk
  cases (perfect_fluid (not_le.mp hc)).symm.trans ho.law

theorem hooke_zero (bulk shear : ℝ) : hooke bulk shear 0 = 0 := by
  simp [hooke]

example : ∃ f, perfectAll 3 0 1 1 (fun _ => zero) Verif.Return.zeroFields Verif.Return.zeroFields [0] = .ok f := by
  obtain ⟨o, ho⟩ : ∃ o, perfectPoint 3 0 1 1 zero zero 0 = .ok o := by
    unfold perfectPoint
    simp only
    rw [if_neg]
    · exact ⟨_, rfl⟩
    · rw [Verif.Correspondence.misesOf_dev, Verif.Correspondence.trial_eq, toMatrix_zero, smul_zero, hooke_zero, add_zero,
        ← toMatrix_zero, von_mises_zero]
      norm_num
  refine ⟨Verif.Return.zeroFields.put false 0 o, ?_⟩
  unfold perfectAll
  exact BC.foldlM_cons_ok.mpr ⟨_, (by show (perfectPoint 3 0 1 1 zero zero 0 >>= _) = _; rw [ho]; rfl), rfl⟩

/-! ### C243 -/

/-- Rigid motion does not deform bonds, whatever the stresses are. -/
theorem rigid_rate {B : Body} {D : Decompose} (hD : D.Correct) {order : Nat} {U : Update} {ghost : Nat → ℝ}
    {nbs : List (List Nat)} (hN : Within nbs nbs.length) {d : Nat → ℝ} {s : State}
    (hrun : Run B D order U ghost nbs (Reported nbs) d s) {dt : ℝ} {H : Harm} (hr : Reported nbs d H)
    {u y v : Nat → V3} {g : Ghosts} {r : Result}
    (h : evaluation B D order U dt H u y v g s nbs.length (encode nbs) = .ok r)
    (hh : ∀ p < nbs.length, 0 < B.horizon p) (hw : ∀ p < nbs.length, WellPlaced B order H.bondDamage nbs p)
    {F W : Matrix (Fin 3) (Fin 3) ℝ} {f c : V3} (hu : ∀ k, u k = y k - B.x k) (hy : ∀ k, y k = F *ᵥ B.x k + f)
    (hW : Wᵀ = -W) (hv : ∀ k, v k = W *ᵥ y k + c) (k : Nat) : r.kin.rate k = zero := by
  have hp := (force_parts (evaluation_parts h).2).2
  obtain ⟨ha, hb⟩ := kin_fold (bondsOf_nodup nbs) hp.kin
  by_cases hk : k ∈ (bondsOf nbs).map (·.b)
  · obtain ⟨b, hbm, rfl⟩ := List.mem_map.1 hk
    by_cases ho : 0 < r.pre.weights.omega b.b
    · obtain ⟨-, hi, -, -, -, -, e⟩ := (ha b hbm).1.active ho
      obtain ⟨g1, g2⟩ := C141_affine hD hN hrun hr h hh hw (F := F) (A := W * F) (f := f) (a := W *ᵥ f + c) hu hy
        (fun k => by rw [hv, hy, mulVec_add, mulVec_mulVec, add_assoc]) hbm
      have hinv := product_invert3 ((invert3_code _).mp hi)
      rw [g1] at hinv
      apply toMatrix_injective
      rw [e, Verif.Correspondence.unrotated_eq, Verif.Correspondence.toMatrix_mm, g2, Matrix.mul_assoc W F, hinv, Matrix.mul_one, hW, add_neg_cancel, smul_zero,
        Matrix.mul_zero, Matrix.zero_mul, toMatrix_zero]
    · exact ((ha b hbm).1.idle ho).2.2
  · exact (hb k hk).2.2.2.2

/-- A bond without deformation keeps stress and plastic strain. -/
theorem still_step {B : Body} {D : Decompose} {order : Nat} {bulk shear yield : ℝ} (hy : 0 ≤ yield) {ghost : Nat → ℝ}
    {nbs : List (List Nat)} {A : (Nat → ℝ) → Harm → Prop} {d : Nat → ℝ} {s : State} {o : Shown} {e : Strains}
    (hrun : PlasticRun B D order bulk shear yield ghost nbs A d s o e) {dt : ℝ} {H : Harm} {u y v : Nat → V3} {g : Ghosts}
    {q : PlasticResult} (h : perfectEvaluation B D order bulk shear yield dt H u y v g s o e nbs.length (encode nbs) = .ok q)
    {k : Nat} (hk : q.result.kin.rate k = zero) : q.result.stress k = s.stress k ∧ q.strains.bond k = e.bond k := by
  have hp := plastic_parts h
  by_cases hm : k < (nbs.map List.length).sum
  · have hR := (C242_step hy h).1 k hm
    rw [hk, toMatrix_zero, smul_zero] at hR
    have := hR.elastic
    rw [hooke_zero, add_zero] at this
    obtain ⟨a, b⟩ := this ((C242_bound hy hrun).1 k).1
    exact ⟨toMatrix_injective a, b⟩
  · obtain ⟨c1, -, c3, -⟩ := (perfectAll_spec hp.bonds).2 k (fun hx => hm (mem_places.mp hx))
    rw [(fields_stress hp).1] at c1
    exact ⟨c1, c3⟩

/-- **C243** A rigid motion of a deformed body with yielded bonds changes neither their unrotated stresses nor their plastic
strains. -/
theorem C243_rigid {B : Body} {D : Decompose} (hD : D.Correct) {order : Nat} {bulk shear yield : ℝ} (hy0 : 0 ≤ yield) {ghost : Nat → ℝ}
    {nbs : List (List Nat)} (hN : Within nbs nbs.length) {d : Nat → ℝ} {s : State} {o : Shown} {e : Strains}
    (hrun : PlasticRun B D order bulk shear yield ghost nbs (Reported nbs) d s o e) {dt : ℝ} {H : Harm} (hr : Reported nbs d H)
    {u y v : Nat → V3} {g : Ghosts} {q : PlasticResult}
    (h : perfectEvaluation B D order bulk shear yield dt H u y v g s o e nbs.length (encode nbs) = .ok q)
    (hh : ∀ p < nbs.length, 0 < B.horizon p) (hw : ∀ p < nbs.length, WellPlaced B order H.bondDamage nbs p)
    {F W : Matrix (Fin 3) (Fin 3) ℝ} {f c : V3} (hu : ∀ k, u k = y k - B.x k) (hy : ∀ k, y k = F *ᵥ B.x k + f)
    (hW : Wᵀ = -W) (hv : ∀ k, v k = W *ᵥ y k + c) (k : Nat) :
    q.result.stress k = s.stress k ∧ q.strains.bond k = e.bond k :=
  still_step hy0 hrun h (rigid_rate hD hN (plastic_run hrun) hr (plastic_parts h).eval hh hw hu hy hW hv k)

example : ∃ (D : Decompose) (s : State) (o : Shown) (e : Strains) (q : PlasticResult), D.Correct ∧
    PlasticRun tetra D 1 3 1 1 (fun _ => 0) tetraNbs (Tame tetraNbs) (fun _ => 0) s o e ∧
    perfectEvaluation tetra D 1 3 1 1 1 intact u0 y0 v0 g0 s o e tetraNbs.length (encode tetraNbs) = .ok q ∧
    (∀ p < tetraNbs.length, WellPlaced tetra 1 intact.bondDamage tetraNbs p) ∧ spin0ᵀ = -spin0 ∧ ∀ k, v0 k = spin0 *ᵥ y0 k + 0 := by
  obtain ⟨D, hD, s, o, e, h, q, hq⟩ := plastic_case
  exact ⟨D, s, o, e, q, hD, h, hq, fun p hp => tetra_placed (fun _ => rfl) hp, spin0_skew, fun _ => by simp [v0]⟩

/-- **C243** A broken bond keeps stress and plastic strain. -/
theorem C243_broken {B : Body} {D : Decompose} {order : Nat} {bulk shear yield : ℝ} (hy0 : 0 ≤ yield) {ghost : Nat → ℝ}
    {nbs : List (List Nat)} {d : Nat → ℝ} {s : State} {o : Shown} {e : Strains}
    (hrun : PlasticRun B D order bulk shear yield ghost nbs (Reported nbs) d s o e) {dt : ℝ} {H : Harm} (hr : Reported nbs d H)
    {u y v : Nat → V3} {g : Ghosts} {q : PlasticResult}
    (h : perfectEvaluation B D order bulk shear yield dt H u y v g s o e nbs.length (encode nbs) = .ok q)
    {p t j : Nat} {ns : List Nat} (hp : nbs[p]? = some ns) (ht : ns[t]? = some j) (hd : H.bondDamage (bondPos nbs p t) = 1) :
    q.result.stress (bondPos nbs p t) = s.stress (bondPos nbs p t) ∧ q.strains.bond (bondPos nbs p t) = e.bond (bondPos nbs p t) := by
  have hm := bond_mem hp ht
  have he := (plastic_parts h).eval
  have hf := (force_parts (evaluation_parts he).2).2
  obtain ⟨ha, -⟩ := kin_fold (bondsOf_nodup nbs) hf.kin
  have ho := (sound_omega (sound_step hr (sound_run (plastic_run hrun)) he) hm).1
  refine still_step hy0 hrun h ((ha _ hm).1.idle ?_).2.2
  rw [ho, influenceOf, hd]
  simp

example : ∃ (D : Decompose) (s : State) (o : Shown) (e : Strains) (q : PlasticResult),
    PlasticRun tetra D 1 3 1 1 (fun _ => 0) tetraNbs (Reported tetraNbs) (fun _ => 0) s o e ∧ Reported tetraNbs (fun _ => 0) lone ∧
    perfectEvaluation tetra D 1 3 1 1 1 lone (fun _ => 0) tetra.x v0 g0 s o e tetraNbs.length (encode tetraNbs) = .ok q ∧
    tetraNbs[3]? = some [0, 1, 2] ∧ ([0, 1, 2] : List Nat)[1]? = some 1 ∧ lone.bondDamage (bondPos tetraNbs 3 1) = 1 := by
  obtain ⟨D, hD⟩ := correct_exists
  obtain ⟨s, h, -⟩ := tetra_start D (elasticUpdate 3 1) (Reported tetraNbs)
  have hs : PlasticRun tetra D 1 3 1 1 (fun _ => 0) tetraNbs (Reported tetraNbs) (fun _ => 0) s shownStart strainsStart := .start h
  obtain ⟨r, hr⟩ := tetra_breaks (update_total (bulk := 3) (yield := 1) one_ne_zero (places tetraNbs)) (plastic_run hs) 1 lone v0 g0
  obtain ⟨q, hq, -⟩ := plastic_defined one_ne_zero shownStart strainsStart hr
  exact ⟨D, s, _, _, q, hs, lone_reported _, hq, rfl, rfl, lone_broken (p := 3) (t := 1) (j := 1) rfl rfl (Or.inl rfl)⟩

/-- **C243** Bond stresses are symmetric throughout an analysis. -/
theorem C243_symmetric {B : Body} {D : Decompose} {order : Nat} {bulk shear yield : ℝ} (hy0 : 0 ≤ yield) {ghost : Nat → ℝ}
    {nbs : List (List Nat)} {A : (Nat → ℝ) → Harm → Prop} {d : Nat → ℝ} {s : State} {o : Shown} {e : Strains}
    (hrun : PlasticRun B D order bulk shear yield ghost nbs A d s o e) (k : Nat) :
    (s.stress k).toMatrixᵀ = (s.stress k).toMatrix := by
  induction hrun with
  | start h =>
    unfold initialState at h
    rw [visited_encode, Outcome.ok_bind] at h
    obtain ⟨w, h1, h2⟩ := Outcome.bind_eq_ok.mp h
    split at h2
    · cases h2
    · cases h2
      simp only [toMatrix_zero, transpose_zero]
  | step _ _ h ih =>
    rename_i d' s' o' e' dt' H' u' y' v' g' q _ _
    have hp := plastic_parts h
    show (q.result.stress k).toMatrixᵀ = (q.result.stress k).toMatrix
    by_cases hm : k < (nbs.map List.length).sum
    · have hR := (C242_step hy0 h).1 k hm
      have hr := rate_symm (force_parts (evaluation_parts hp.eval).2).2 k
      obtain ⟨c, -, -, hc⟩ := hR.direction
      have e1 : (q.result.stress k).toMatrix = c • Verif.Correspondence.dev ((s'.stress k).toMatrix + hooke bulk shear (dt' • (q.result.kin.rate k).toMatrix)) + Verif.Correspondence.mean (q.result.stress k).toMatrix • 1 := by
        rw [← hc, Verif.Correspondence.dev, sub_add_cancel]
      rw [e1]
      simp only [transpose_add, transpose_smul, transpose_one, Verif.Correspondence.dev, transpose_sub, ih, hooke, hr]
    · obtain ⟨c1, -⟩ := (perfectAll_spec hp.bonds).2 k (fun hx => hm (mem_places.mp hx))
      rw [(fields_stress hp).1] at c1
      rw [c1]
      exact ih
  | again _ _ h ih => exact ih

example : ∃ (D : Decompose) (s : State) (o : Shown) (e : Strains),
    PlasticRun tetra D 1 3 1 1 (fun _ => 0) tetraNbs (Tame tetraNbs) (fun _ => 0) s o e ∧ ∀ k, (s.stress k).toMatrixᵀ = (s.stress k).toMatrix := by
  obtain ⟨D, _, s, o, e, h, -⟩ := plastic_case
  exact ⟨D, s, o, e, h, C243_symmetric zero_le_one h⟩

/-- **C243** Linear momentum, and angular momentum if the neighbors of all points determine linear fields, are balanced. -/
theorem C243_moment {B : Body} {D : Decompose} (hD : D.Correct) {order : Nat} {bulk shear yield : ℝ} (hy0 : 0 ≤ yield) {ghost : Nat → ℝ}
    {nbs : List (List Nat)} (hB : Whole B nbs) {d : Nat → ℝ} {s : State} {o : Shown} {e : Strains}
    (hrun : PlasticRun B D order bulk shear yield ghost nbs (Tame nbs) d s o e)
    {dt : ℝ} {H : Harm} (hH : Tame nbs d H) {u y v : Nat → V3} (hy : ∀ k, y k = B.x k + u k) {g : Ghosts} {q : PlasticResult}
    (h : perfectEvaluation B D order bulk shear yield dt H u y v g s o e nbs.length (encode nbs) = .ok q)
    (hh : ∀ p < nbs.length, 0 < B.horizon p) (hw : ∀ p < nbs.length, WellPlaced B order H.bondDamage nbs p) :
    totalForce B.volume q.result.force nbs.length = 0 ∧ totalMoment y B.volume q.result.force nbs.length = 0 :=
  ⟨C139_force (plastic_parts h).eval hB.within,
    C140_moment hD (perfect_local nbs bulk shear yield) hB (plastic_run hrun) hH hy (plastic_parts h).eval hh hw
      (C243_symmetric hy0 (.step hrun hH h))⟩

example : ∃ (D : Decompose) (s : State) (o : Shown) (e : Strains) (q : PlasticResult), D.Correct ∧ Whole tetra tetraNbs ∧
    PlasticRun tetra D 1 3 1 1 (fun _ => 0) tetraNbs (Tame tetraNbs) (fun _ => 0) s o e ∧ Tame tetraNbs (fun _ => 0) intact ∧
    (∀ k, y0 k = tetra.x k + u0 k) ∧
    perfectEvaluation tetra D 1 3 1 1 1 intact u0 y0 v0 g0 s o e tetraNbs.length (encode tetraNbs) = .ok q ∧
    ∀ p < tetraNbs.length, WellPlaced tetra 1 intact.bondDamage tetraNbs p := by
  obtain ⟨D, hD, s, o, e, h, q, hq⟩ := plastic_case
  exact ⟨D, s, o, e, q, hD, tetra_whole, h, intact_tame, fun k => by rw [u0]; abel, hq, fun p hp => tetra_placed (fun _ => rfl) hp⟩

end Verif.Assoc
