import Verif.Assoc.OutputLemmas
import Mathlib.Tactic.NoncommRing

/-!
# Bond-associated correspondence material: the fields written for points

C208: the strain.  C209: stretch, rotation and stress.
-/

noncomputable section

namespace Verif.Assoc

open Verif Verif.Neigh Verif.Mech Verif.Tensor Matrix
open Verif.Correspondence (bondsAt identity newStretch newRotation unrotated rotateStress toMatrix_mTm toMatrix_identity elasticPoint)
open scoped Classical

/-! ### C208 -/

/-- **C208** In explicit time integration without damage the strain written for a point is the Green-Lagrange strain of
its present deformation gradient, plus half the sum over all steps of the squares of the changes of the deformation
gradient.  Missing: the second part should not be there. -/
theorem C208_written_partial {B : Body} {D : Decompose} {order : Nat} {U N : Update} {ghost : Nat → ℝ} {nbs : List (List Nat)}
    {u : Nat → V3} {F : Nat → M9} {hist : List (Nat → M9)} {s : State} {o : Shown}
    (h : Explicit B D order U N ghost nbs u (F :: hist) s o) {p : Nat} (hp : p < nbs.length) :
    (o.strain p).toMatrix = green (F p).toMatrix +
      jumps ((F p).toMatrix :: (hist.map fun G => (G p).toMatrix) ++ [1]) := by
  obtain ⟨l, e1, e2⟩ := (explicit_invariant h).2 p hp
  have e := (List.cons.inj e1).1
  rw [e2, ← e]
  rfl

/-- **C208** The strain written in any direction is at least the strain of the deformation gradient, and exceeds it once a
step has stretched or turned the direction. -/
theorem C208_exceeds_partial {B : Body} {D : Decompose} {order : Nat} {U N : Update} {ghost : Nat → ℝ} {nbs : List (List Nat)}
    {u : Nat → V3} {F : Nat → M9} {hist : List (Nat → M9)} {s : State} {o : Shown}
    (h : Explicit B D order U N ghost nbs u (F :: hist) s o) {p : Nat} (hp : p < nbs.length) (a : V3) :
    a ⬝ᵥ green (F p).toMatrix *ᵥ a ≤ a ⬝ᵥ (o.strain p).toMatrix *ᵥ a ∧
    (a ⬝ᵥ green (F p).toMatrix *ᵥ a = a ⬝ᵥ (o.strain p).toMatrix *ᵥ a →
      ∀ G ∈ F :: hist, (G p).toMatrix *ᵥ a = a) := by
  have sq : ∀ M : Matrix (Fin 3) (Fin 3) ℝ, a ⬝ᵥ (Mᵀ * M) *ᵥ a = (M *ᵥ a) ⬝ᵥ (M *ᵥ a) := by
    intro M
    rw [← mulVec_mulVec, dotProduct_mulVec, vecMul_transpose]
  have key : ∀ (l : List (Matrix (Fin 3) (Fin 3) ℝ)), 0 ≤ a ⬝ᵥ jumps (l ++ [1]) *ᵥ a ∧
      (a ⬝ᵥ jumps (l ++ [1]) *ᵥ a = 0 → ∀ M ∈ l, M *ᵥ a = a) := by
    intro l
    induction l with
    | nil => simp [jumps]
    | cons M l ih =>
      obtain ⟨M', l', e⟩ : ∃ M' l', l ++ [1] = M' :: l' := by
        cases l with
        | nil => exact ⟨_, _, rfl⟩
        | cons x l => exact ⟨_, _, rfl⟩
      have hq : a ⬝ᵥ jumps (M :: l ++ [1]) *ᵥ a =
          1 / 2 * (((M - M') *ᵥ a) ⬝ᵥ ((M - M') *ᵥ a)) + a ⬝ᵥ jumps (l ++ [1]) *ᵥ a := by
        rw [List.cons_append, e, jumps, add_mulVec, dotProduct_add, smul_mulVec, dotProduct_smul, sq, smul_eq_mul]
      have hn : 0 ≤ ((M - M') *ᵥ a) ⬝ᵥ ((M - M') *ᵥ a) := by
        rw [dotProduct]
        exact Finset.sum_nonneg fun i _ => mul_self_nonneg _
      rw [hq]
      refine ⟨by linarith [ih.1], fun h0 => ?_⟩
      have h1 : a ⬝ᵥ jumps (l ++ [1]) *ᵥ a = 0 := by linarith [ih.1]
      have h2 : ((M - M') *ᵥ a) ⬝ᵥ ((M - M') *ᵥ a) = 0 := by linarith [ih.1]
      have h3 := ih.2 h1
      have h4 : M *ᵥ a = M' *ᵥ a := by
        have := dotProduct_self_eq_zero.mp h2
        rw [sub_mulVec] at this
        exact sub_eq_zero.mp this
      have h5 : M' *ᵥ a = a := by
        cases l with
        | nil =>
          obtain ⟨rfl, -⟩ := List.cons.inj e
          exact one_mulVec a
        | cons x l =>
          obtain ⟨rfl, -⟩ := List.cons.inj e
          exact h3 x List.mem_cons_self
      intro X hX
      rcases List.mem_cons.mp hX with rfl | hX
      · exact h4.trans h5
      · exact h3 X hX
  rw [C208_written_partial h hp, add_mulVec, dotProduct_add]
  obtain ⟨k1, k2⟩ := key ((F p).toMatrix :: hist.map fun G => (G p).toMatrix)
  refine ⟨by linarith, fun h0 G hG => k2 (by linarith) _ ?_⟩
  exact (List.mem_map (f := fun G : Nat → M9 => (G p).toMatrix) (l := F :: hist)).mpr ⟨G, hG, rfl⟩

/-- A quarter turn about the third axis. -/
def quarter : Matrix (Fin 3) (Fin 3) ℝ := !![0, -1, 0; 1, 0, 0; 0, 0, 1]

theorem quarter_turn : quarterᵀ * quarter = 1 ∧ quarter.det = 1 := by
  constructor
  · ext i j
    fin_cases i <;> fin_cases j <;> simp [quarter, Matrix.mul_apply, Fin.sum_univ_three]
  · simp [quarter, det_fin_three]

theorem quarter_power (k : Nat) : (quarter ^ k)ᵀ * quarter ^ k = 1 := by
  induction k with
  | zero => simp
  | succ k ih => rw [pow_succ, transpose_mul, Matrix.mul_assoc, ← Matrix.mul_assoc _ (quarter ^ k), ih, Matrix.one_mul, quarter_turn.1]

/-- The analyses of the tetrahedron that turns by a quarter in each step. -/
theorem turning {D : Decompose} (hD : D.Correct) (k : Nat) : ∃ s o hist,
    Run tetra D 1 (elasticUpdate 3 1) (fun _ => 0) tetraNbs (Tame tetraNbs) (fun _ => 0) s ∧
    Explicit tetra D 1 (elasticUpdate 3 1) (elasticUpdate 3 1) (fun _ => 0) tetraNbs (fun q => quarter ^ k *ᵥ tetra.x q - tetra.x q) hist s o ∧
    hist.length = k ∧ (∀ p < tetraNbs.length, ∀ j < k, ∃ G, hist[j]? = some G ∧ (G p).toMatrix = quarter ^ (k - j)) := by
  induction k with
  | zero =>
    obtain ⟨s, h, hs⟩ := tetra_start D (elasticUpdate 3 1) (Tame tetraNbs)
    refine ⟨s, shownStart, [], hs, ?_, rfl, fun p _ j hj => absurd hj (by omega)⟩
    have e : (fun q => quarter ^ 0 *ᵥ tetra.x q - tetra.x q) = fun _ => 0 := by
      funext q
      rw [pow_zero, one_mulVec, sub_self]
    rw [e]
    exact .start h
  | succ k ih =>
    obtain ⟨s, o, hist, hs, he, hl, hh⟩ := ih
    obtain ⟨r, hr⟩ := tetra_moves hD hs 1 g0 (u := fun q => quarter ^ (k + 1) *ᵥ tetra.x q - tetra.x q)
      (y := fun q => quarter ^ (k + 1) *ᵥ tetra.x q) (v := fun q => (quarter ^ (k + 1) - quarter ^ k) *ᵥ tetra.x q)
      (F := quarter ^ (k + 1)) (A := quarter ^ (k + 1) - quarter ^ k) (f := 0) (a := 0)
      (by rw [det_pow, quarter_turn.2, one_pow]; exact one_ne_zero) (fun _ => rfl) (fun _ => (add_zero _).symm) fun _ => (add_zero _).symm
    obtain ⟨w, hw⟩ := written_defined (elastic_total 3 1) o hr
    refine ⟨r.next s, w.kept, r.pre.grad :: hist, .step hs intact_tame hr, .step he rfl (fun q => ?_) (fun q => ?_) hw, by simp [hl], ?_⟩
    · rw [one_smul, sub_mulVec]; abel
    · abel
    · intro p hp j hj
      cases j with
      | zero =>
        refine ⟨_, rfl, ?_⟩
        exact ((affine_pre hD tetra_within (sound_run (hs.mono fun _ _ a => a.reported)) intact_tame.reported (evaluation_parts hr).1
          tetra_horizon (fun _ hp => tetra_placed (fun _ => rfl) hp) (f := 0) (a := 0) (fun _ => rfl) (fun _ => (add_zero _).symm)
          fun _ => (add_zero _).symm).1 p hp).1
      | succ j =>
        obtain ⟨G, h1, h2⟩ := hh p hp j (by omega)
        exact ⟨G, by simpa using h1, by rw [h2]; congr 1; omega⟩

theorem turning_jumps {l : List (Matrix (Fin 3) (Fin 3) ℝ)} : (∀ j < l.length, l[j]? = some (quarter ^ (l.length - j))) →
    jumps (l ++ [1]) = (l.length : ℝ) • !![1, 0, 0; 0, 1, 0; 0, 0, 0] := by
  induction l with
  | nil => intro _; simp [jumps]
  | cons M l ih =>
    intro h
    have hM : M = quarter ^ (l.length + 1) := by simpa using h 0 (by simp)
    have hl := ih fun j hj => by simpa using h (j + 1) (by simpa using hj)
    obtain ⟨M', l', e, hM'⟩ : ∃ M' l', l ++ [1] = M' :: l' ∧ M' = quarter ^ l.length := by
      cases l with
      | nil => exact ⟨_, _, rfl, by simp⟩
      | cons x l => exact ⟨_, _, rfl, by simpa using h 1 (by simp)⟩
    have hs : (quarter ^ (l.length + 1) - quarter ^ l.length)ᵀ * (quarter ^ (l.length + 1) - quarter ^ l.length) =
        !![2, 0, 0; 0, 2, 0; 0, 0, 0] := by
      have e1 : quarter ^ (l.length + 1) - quarter ^ l.length = quarter ^ l.length * (quarter - 1) := by
        rw [pow_succ, Matrix.mul_sub, Matrix.mul_one]
      rw [e1, transpose_mul, Matrix.mul_assoc, ← Matrix.mul_assoc _ (quarter ^ l.length), quarter_power, Matrix.one_mul]
      ext i j
      fin_cases i <;> fin_cases j <;> simp [quarter, Matrix.mul_apply, Fin.sum_univ_three, Matrix.one_apply] <;> norm_num
    rw [List.cons_append, e, jumps, ← e, hl, hM, hM', hs, List.length_cons]
    ext i j
    fin_cases i <;> fin_cases j <;> simp <;> ring

/-- **C208** Hence a body that only turns is written to be strained, ever more: after `k` steps of a quarter turn the written
strains in the plane of rotation are `k`, while the strains of the deformation gradients are zero. -/
theorem C208_turning {D : Decompose} (hD : D.Correct) (k : Nat) (hk : k ≠ 0) : ∃ s o F hist,
    Explicit tetra D 1 (elasticUpdate 3 1) (elasticUpdate 3 1) (fun _ => 0) tetraNbs (fun q => quarter ^ k *ᵥ tetra.x q - tetra.x q)
      (F :: hist) s o ∧
    ∀ p < tetraNbs.length, green (F p).toMatrix = 0 ∧ (o.strain p).toMatrix = (k : ℝ) • !![1, 0, 0; 0, 1, 0; 0, 0, 0] := by
  obtain ⟨s, o, hist, -, he, hl, hh⟩ := turning hD k
  cases hist with
  | nil => exact absurd hl.symm hk
  | cons F hist =>
    refine ⟨s, o, F, hist, he, fun p hp => ?_⟩
    have hF : (F p).toMatrix = quarter ^ k := by
      obtain ⟨G, h1, h2⟩ := hh p hp 0 (by omega)
      obtain rfl : F = G := by simpa using h1
      exact h2
    have hg : green (F p).toMatrix = 0 := by
      rw [hF, green, quarter_power, sub_self, smul_zero]
    refine ⟨hg, ?_⟩
    rw [C208_written_partial he hp, hg, zero_add]
    have := turning_jumps (l := (F p).toMatrix :: hist.map fun G => (G p).toMatrix) (fun j hj => by
      have hj : j < (F :: hist).length := by simpa using hj
      obtain ⟨G, h1, h2⟩ := hh p hp j (by omega)
      have e : ((F p).toMatrix :: hist.map fun G => (G p).toMatrix) = (F :: hist).map fun G => (G p).toMatrix := rfl
      rw [e, List.getElem?_map, h1, List.length_map, hl, ← h2]
      rfl)
    rw [this]
    have e : ((F p).toMatrix :: hist.map fun G => (G p).toMatrix).length = k := by simpa using hl
    rw [e]

example : ∃ D : Decompose, D.Correct ∧ ∃ s o F hist,
    Explicit tetra D 1 (elasticUpdate 3 1) (elasticUpdate 3 1) (fun _ => 0) tetraNbs (fun q => quarter ^ 3 *ᵥ tetra.x q - tetra.x q)
      (F :: hist) s o := by
  obtain ⟨D, hD⟩ := correct_exists
  obtain ⟨s, o, F, hist, h, -⟩ := C208_turning hD 3 (by omega)
  exact ⟨D, hD, s, o, F, hist, h⟩

/-- **C208** In the evaluation at the beginning of the analysis, where nothing has moved, the strain written is the time step
times the rate of deformation of the initial velocities. -/
theorem C208_beginning {B : Body} {D : Decompose} (hD : D.Correct) {order : Nat} {U N : Update} {ghost : Nat → ℝ} {nbs : List (List Nat)}
    (hN : Within nbs nbs.length) {s : State} (hs : initialState B D order ghost nbs.length (encode nbs) = .ok s) {dt : ℝ} {H : Harm}
    (hH : H.bondDamage = fun _ => 0) {v : Nat → V3} {g : Ghosts} {r : Result} {w : Written}
    (h : evaluationWritten B D order U N dt H (fun _ => 0) B.x v g s shownStart nbs.length (encode nbs) = .ok (r, w))
    (hh : ∀ p < nbs.length, 0 < B.horizon p) (hw : ∀ p < nbs.length, WellPlaced B order (fun _ => 0) nbs p)
    {A : Matrix (Fin 3) (Fin 3) ℝ} {a : V3} (hv : ∀ k, v k = A *ᵥ B.x k + a) {p : Nat} (hp : p < nbs.length) :
    (r.pre.grad p).toMatrix = 1 ∧ (w.kept.strain p).toMatrix = (dt / 2) • (A + Aᵀ) := by
  obtain ⟨h1, h2⟩ := evaluationWritten_parts h
  obtain ⟨g1, g2⟩ := (affine_pre hD hN (sound_start hs) (unharmed_reported hH) (evaluation_parts h1).1 hh (by rw [hH]; exact hw)
    (F := 1) (f := 0) (A := A) (a := a) (fun k => (sub_self _).symm) (fun k => by rw [one_mulVec, add_zero]) hv).1 p hp
  refine ⟨g1, ?_⟩
  rw [(written_parts h2).strain, updateStrain_at _ _ hp, toMatrix_strainStep, g1, g2]
  show zero.toMatrix + _ = _
  rw [toMatrix_zero, zero_add, Matrix.mul_one, transpose_one, Matrix.one_mul, add_comm]

example : ∃ (D : Decompose) (s : State) (r : Result) (w : Written), D.Correct ∧ Within tetraNbs tetraNbs.length ∧
    initialState tetra D 1 (fun _ => 0) tetraNbs.length (encode tetraNbs) = .ok s ∧
    evaluationWritten tetra D 1 (elasticUpdate 3 1) (elasticUpdate 3 1) 1 intact (fun _ => 0) tetra.x tetra.x g0 s shownStart
      tetraNbs.length (encode tetraNbs) = .ok (r, w) ∧
    (∀ p < tetraNbs.length, WellPlaced tetra 1 (fun _ => 0) tetraNbs p) ∧ ∀ k, tetra.x k = (1 : Matrix (Fin 3) (Fin 3) ℝ) *ᵥ tetra.x k + 0 := by
  obtain ⟨D, hD⟩ := correct_exists
  obtain ⟨s, h, hs⟩ := tetra_start D (elasticUpdate 3 1) (Tame tetraNbs)
  obtain ⟨r, hr⟩ := tetra_breaks (elastic_total 3 1) hs 1 intact tetra.x g0
  obtain ⟨w, hw⟩ := written_defined (elastic_total 3 1) shownStart hr
  exact ⟨D, s, r, w, hD, tetra_within, h, hw, fun p hp => tetra_placed (fun _ => rfl) hp, fun k => by rw [one_mulVec, add_zero]⟩

/-! ### C209 -/

/-- One evaluation: if what is kept for a point agrees with a bond before, it does so after, and so do the fields
that are not kept. -/
theorem same_step {B : Body} {D : Decompose} (hD : D.Correct) {order : Nat} {law : ℝ → M9 → M9 → M9}
    {nbs : List (List Nat)} (hN : Within nbs nbs.length) (hh : ∀ p < nbs.length, 0 < B.horizon p)
    (hw : ∀ p < nbs.length, WellPlaced B order (fun _ => 0) nbs p)
    (hi : ∀ b ∈ bondsOf nbs, 0 < B.influence (len (B.x b.j - B.x b.i)) (B.horizon b.i)) {s : State} {o : Shown}
    {dt : ℝ} {H : Harm} {u y v : Nat → V3} {g : Ghosts} {r : Result} {w : Written} {F A : Matrix (Fin 3) (Fin 3) ℝ} {f a : V3}
    (hs : Sound B D order (fun _ => 0) nbs s.weights) (hH : H.bondDamage = (fun _ => 0))
    (hu : ∀ k, u k = y k - B.x k) (hy : ∀ k, y k = F *ᵥ B.x k + f) (hv : ∀ k, v k = A *ᵥ B.x k + a)
    (h : evaluationWritten B D order (pointwise law) (pointwise law) dt H u y v g s o nbs.length (encode nbs) = .ok (r, w))
    {p : Nat} (hp : p < nbs.length) {b : Bond} (hb : b ∈ bondsOf nbs)
    (e1 : o.stretch p = s.stretch b.b) (e2 : o.rotation p = s.rotation b.b) (e3 : o.stress p = s.stress b.b) :
    Sound B D order (fun _ => 0) nbs r.pre.weights ∧ w.kept.stretch p = r.kin.stretch b.b ∧
      w.kept.rotation p = r.kin.rotation b.b ∧ w.kept.stress p = r.stress b.b ∧ w.rate p = r.kin.rate b.b ∧
      w.cauchy p = r.cauchy b.b := by
  obtain ⟨h1, h2⟩ := evaluationWritten_parts h
  have hs' := sound_step (unharmed_reported hH) hs h1
  obtain ⟨k1, k2⟩ := affine_pre hD hN hs (unharmed_reported hH) (evaluation_parts h1).1 hh (by rw [hH]; exact hw) hu hy hv
  have c1 : bondGradient B r.pre.grad y b = r.pre.grad p := toMatrix_injective ((k2 b hb).1.trans (k1 p hp).1.symm)
  have c2 : bondGradient B r.pre.gradDot v b = r.pre.gradDot p := toMatrix_injective ((k2 b hb).2.trans (k1 p hp).2.symm)
  have hP := (force_parts (evaluation_parts h1).2).2
  have ho : 0 < r.pre.weights.omega b.b := by
    rw [(sound_omega hs' hb).1, influenceOf, hH, sub_zero, mul_one]
    exact hi b hb
  obtain ⟨-, -, -, -, b1, b2, b3⟩ := ((kin_fold (bondsOf_nodup nbs) hP.kin).1 b hb).1.active ho
  obtain ⟨n1, n2, n3⟩ := nodeKin_at dt r.pre nbs.length o hp
  have W := written_parts h2
  rw [hH] at hs'
  have r1 : w.kept.stretch p = r.kin.stretch b.b := by rw [W.stretch, n1, b1, c1, c2, e1]
  have r2 : w.kept.rotation p = r.kin.rotation b.b := by rw [W.rotation, n2, b2, c1, c2, e1, e2]
  have r3 : w.rate p = r.kin.rate b.b := by rw [W.rate, n3, b3, c1, c2, ← W.rotation, r2]
  have s1 := W.stress
  have s2 := hP.stress
  unfold pointwise at s1 s2
  have r4 : w.kept.stress p = r.stress b.b := by
    rw [← Outcome.ok.inj s1, ← Outcome.ok.inj s2]
    show law dt (w.rate p) (o.stress p) = law dt (r.kin.rate b.b) (s.stress b.b)
    rw [r3, e3]
  exact ⟨hs', r1, r2, r4, r3, by rw [W.cauchy, hP.cauchy, r2, r4]⟩

theorem same_run {B : Body} {D : Decompose} (hD : D.Correct) {order : Nat} {law : ℝ → M9 → M9 → M9} {ghost : Nat → ℝ}
    {nbs : List (List Nat)} (hN : Within nbs nbs.length) (hh : ∀ p < nbs.length, 0 < B.horizon p)
    (hw : ∀ p < nbs.length, WellPlaced B order (fun _ => 0) nbs p)
    (hi : ∀ b ∈ bondsOf nbs, 0 < B.influence (len (B.x b.j - B.x b.i)) (B.horizon b.i)) {s : State} {o : Shown}
    (h : AffineRun B D order (pointwise law) (pointwise law) ghost nbs s o) {p : Nat} (hp : p < nbs.length) {b : Bond}
    (hb : b ∈ bondsOf nbs) :
    Sound B D order (fun _ => 0) nbs s.weights ∧
    o.stretch p = s.stretch b.b ∧ o.rotation p = s.rotation b.b ∧ o.stress p = s.stress b.b := by
  induction h with
  | start h =>
    refine ⟨sound_start h, ?_⟩
    unfold initialState at h
    rw [visited_encode, Outcome.ok_bind] at h
    obtain ⟨w, h1, h2⟩ := Outcome.bind_eq_ok.mp h
    split at h2
    · cases h2
    · cases h2
      exact ⟨rfl, rfl, rfl⟩
  | step _ hH hu hy hv h ih =>
    obtain ⟨hs, e1, e2, e3⟩ := ih
    obtain ⟨k0, k1, k2, k3, -, -⟩ := same_step hD hN hh hw hi hs hH hu hy hv h hp hb e1 e2 e3
    exact ⟨k0, k1, k2, k3⟩

/-- **C209** In an analysis in which the body is deformed affinely and no bond breaks, left stretch, rotation, rate of
deformation and stresses written for a point are those of all bonds. -/
theorem C209_same {B : Body} {D : Decompose} (hD : D.Correct) {order : Nat} {law : ℝ → M9 → M9 → M9} {ghost : Nat → ℝ}
    {nbs : List (List Nat)} (hN : Within nbs nbs.length) (hh : ∀ p < nbs.length, 0 < B.horizon p)
    (hw : ∀ p < nbs.length, WellPlaced B order (fun _ => 0) nbs p)
    (hi : ∀ b ∈ bondsOf nbs, 0 < B.influence (len (B.x b.j - B.x b.i)) (B.horizon b.i)) {s : State} {o : Shown}
    (hrun : AffineRun B D order (pointwise law) (pointwise law) ghost nbs s o)
    {dt : ℝ} {H : Harm} {u y v : Nat → V3} {g : Ghosts} {r : Result} {w : Written} {F A : Matrix (Fin 3) (Fin 3) ℝ} {f a : V3}
    (hH : H.bondDamage = (fun _ => 0)) (hu : ∀ k, u k = y k - B.x k) (hy : ∀ k, y k = F *ᵥ B.x k + f)
    (hv : ∀ k, v k = A *ᵥ B.x k + a)
    (h : evaluationWritten B D order (pointwise law) (pointwise law) dt H u y v g s o nbs.length (encode nbs) = .ok (r, w))
    {p : Nat} (hp : p < nbs.length) {b : Bond} (hb : b ∈ bondsOf nbs) :
    w.kept.stretch p = r.kin.stretch b.b ∧ w.kept.rotation p = r.kin.rotation b.b ∧ w.rate p = r.kin.rate b.b ∧
      w.kept.stress p = r.stress b.b ∧ w.cauchy p = r.cauchy b.b := by
  obtain ⟨hs, e1, e2, e3⟩ := same_run hD hN hh hw hi hrun hp hb
  obtain ⟨-, k1, k2, k3, k4, k5⟩ := same_step hD hN hh hw hi hs hH hu hy hv h hp hb e1 e2 e3
  exact ⟨k1, k2, k4, k3, k5⟩

example : elasticUpdate 3 1 = pointwise (fun dt D s => elasticPoint 3 1 dt none D s) ∧
    (∀ b ∈ bondsOf tetraNbs, 0 < tetra.influence (len (tetra.x b.j - tetra.x b.i)) (tetra.horizon b.i)) ∧
    ∃ (D : Decompose) (s : State) (o : Shown) (r : Result) (w : Written), D.Correct ∧
      AffineRun tetra D 1 (elasticUpdate 3 1) (elasticUpdate 3 1) (fun _ => 0) tetraNbs s o ∧
      evaluationWritten tetra D 1 (elasticUpdate 3 1) (elasticUpdate 3 1) 1 intact u0 y0 v0 g0 s o
        tetraNbs.length (encode tetraNbs) = .ok (r, w) := by
  refine ⟨rfl, fun _ _ => zero_lt_one, ?_⟩
  obtain ⟨D, hD⟩ := correct_exists
  obtain ⟨s, h, hs⟩ := tetra_start D (elasticUpdate 3 1) (Tame tetraNbs)
  have hv : ∀ k, v0 k = (spin0 * shear0) *ᵥ tetra.x k + (spin0 *ᵥ 0 + 0) := fun k => by
    rw [v0, y0, mulVec_add, mulVec_mulVec, add_assoc]
  have mv : ∀ {s}, Run tetra D 1 (elasticUpdate 3 1) (fun _ => 0) tetraNbs (Tame tetraNbs) (fun _ => 0) s → ∃ r,
      evaluation tetra D 1 (elasticUpdate 3 1) 1 intact u0 y0 v0 g0 s tetraNbs.length (encode tetraNbs) = .ok r := fun hs =>
    tetra_moves hD hs 1 g0 (u := u0) (y := y0) (v := v0) (F := shear0) (A := spin0 * shear0) (f := 0) (a := spin0 *ᵥ 0 + 0)
      (by simp [shear0, det_fin_three]) (fun _ => rfl) (fun _ => rfl) hv
  obtain ⟨r, hr⟩ := mv hs
  obtain ⟨w, hw⟩ := written_defined (elastic_total 3 1) shownStart hr
  obtain ⟨r', hr'⟩ := mv (.step hs intact_tame hr)
  obtain ⟨w', hw'⟩ := written_defined (elastic_total 3 1) w.kept hr'
  exact ⟨D, r.next s, w.kept, r', w', hD, .step (.start h) rfl (fun _ => rfl) (fun _ => rfl) hv hw, hw'⟩

end Verif.Assoc
