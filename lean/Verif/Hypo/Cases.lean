import Verif.Hypo.RunLemmas
import Verif.Assoc.Cases

/-!
# Hypoelastic correspondence material: blocks for the examples

The corners of a tetrahedron, and two points.
-/

noncomputable section

namespace Verif.Hypo

open Verif Verif.Neigh Verif.Mech Verif.Tensor Matrix
open Verif.Assoc (Body Decompose Weights influenceOf bondGradient lenSq WellPlaced xi corner tetra tetraNbs invertAndCond dim
  momentOf qVector forceBond)
open Verif.Correspondence (bondsAt identity newRotation newStretch unrotated angularVelocity qMatrix toMatrix_identity)
open scoped Classical

theorem elastic_total (bulk shear dt : ℝ) (D s : M9) (a : Unit) (o : ℝ) : ∃ r, elasticLaw bulk shear dt D s a o = .ok r := ⟨_, rfl⟩

/-! ### Four points -/

def quad : Block := ⟨fun _ => 1, 2, fun _ _ => 1⟩

/-- No damage, no flying points. -/
def calm : Harm := ⟨fun _ => -1, fun _ => 0⟩

def still : Ghosts := ⟨fun _ => zero, fun _ => 1, fun _ => 0, fun _ => 0⟩

theorem quad_current : current quad (fun _ => 1) corner = tetra := by
  simp [current, quad, tetra]

theorem quad_whole : Whole quad tetraNbs := ⟨Verif.Assoc.tetra_within, Verif.Assoc.tetra_whole.both, fun _ _ => zero_le_one⟩

theorem calm_grounded : Grounded tetraNbs calm :=
  ⟨fun _ => by norm_num [calm], fun _ _ _ _ _ _ _ _ _ _ => rfl, fun _ => zero_le_one⟩

theorem quad_placed {J : Nat → ℝ} (hJ : J = fun _ => 1) {d : Nat → ℝ} (hd : ∀ k, d k = 0) {p : Nat} (hp : p < tetraNbs.length) :
    WellPlaced (current quad J corner) 1 d tetraNbs p := by
  rw [hJ, quad_current]
  exact Verif.Assoc.tetra_placed hd hp

/-- With unit Jacobian determinants an evaluation in the initial positions is defined, whatever the velocities, the damage and
the flying points. -/
theorem quad_defined {α β : Type} (D : Decompose) {M : Material α β} (hn : ∀ dt D s a o, ∃ r, M.node dt D s a o = .ok r)
    (hb : ∀ dt D s a o, ∃ r, M.bond dt D s a o = .ok r) (dt : ℝ) (H : Harm) (v : Nat → V3) (g : Ghosts) {s : State α β}
    (hJ : s.jacobian = fun _ => 1) :
    ∃ r, evaluation quad D 1 M dt H corner v g s tetraNbs.length (encode tetraNbs) = .ok r := by
  obtain ⟨P, hP, h⟩ := evaluation_defined (B := quad) (D := D) one_ne_zero (by norm_num [quad]) hn hb dt H corner v g s
    (nbs := tetraNbs)
  refine h fun b hbm _ => ⟨Verif.Assoc.tetra_distinct b hbm, fun _ => ?_⟩
  obtain ⟨hi, hj⟩ := bonds_within Verif.Assoc.tetra_within b hbm
  have hp := precompute_parts (bondsOf_nodup tetraNbs) hP
  have key : ∀ p < tetraNbs.length, P.w0 p ≠ 0 := by
    intro p hlt
    rw [hp.w0, if_pos hlt, undamagedVolume_eq, Verif.Assoc.bonds_at_sum tetraNbs hlt, hJ]
    have hp : p < 4 := hlt
    interval_cases p <;> simp [tetraNbs, quad, current] <;> norm_num
  exact ⟨key _ hi, key _ hj⟩

/-- Stretching in one direction, shrinking in another. -/
def pull0 : Matrix (Fin 3) (Fin 3) ℝ := !![1, 0, 0; 0, -1, 0; 0, 0, 0]

theorem diag_spin {L V : M9} (h1 : L.xy = 0 ∧ L.xz = 0 ∧ L.yx = 0 ∧ L.yz = 0 ∧ L.zx = 0 ∧ L.zy = 0)
    (h2 : V.xy = 0 ∧ V.xz = 0 ∧ V.yx = 0 ∧ V.yz = 0 ∧ V.zx = 0 ∧ V.zy = 0) : angularVelocity L V = 0 := by
  obtain ⟨a1, a2, a3, a4, a5, a6⟩ := h1
  obtain ⟨b1, b2, b3, b4, b5, b6⟩ := h2
  have hz : Verif.Correspondence.zVector V (Verif.Correspondence.rateOfDeformation L) = 0 := by
    funext c
    fin_cases c <;> simp [Verif.Correspondence.zVector, Verif.Correspondence.rateOfDeformation, a1, a2, a3, a4, a5, a6, b1, b2, b3, b4, b5, b6]
  have hw : Verif.Correspondence.wVector (Verif.Correspondence.spin L) = 0 := by
    funext c
    fin_cases c <;> simp [Verif.Correspondence.wVector, Verif.Correspondence.spin, a1, a2, a3, a4, a5, a6]
  unfold angularVelocity
  rw [hz, hw]
  funext c
  fin_cases c <;> simp [Verif.Correspondence.omegaVector]

theorem diag_rotation (dt : ℝ) {L V : M9} (R : M9) (h1 : L.xy = 0 ∧ L.xz = 0 ∧ L.yx = 0 ∧ L.yz = 0 ∧ L.zx = 0 ∧ L.zy = 0)
    (h2 : V.xy = 0 ∧ V.xz = 0 ∧ V.yx = 0 ∧ V.yz = 0 ∧ V.zx = 0 ∧ V.zy = 0) : newRotation dt L V R = R := by
  apply toMatrix_injective
  rw [Verif.Correspondence.newRotation_eq, diag_spin h1 h2, qMatrix, if_neg (by norm_num [Verif.Correspondence.omegaSq]),
    toMatrix_identity, Matrix.one_mul]

/-- A step in which the block is stretched, and the state after it. -/
theorem quad_stretched : ∃ D : Decompose, D.Correct ∧ ∃ r : Result Unit ℝ,
    evaluation quad D 1 (elastic 3 1) 1 calm corner (fun k => pull0 *ᵥ corner k + 0) still (initialState () 0) tetraNbs.length
      (encode tetraNbs) = .ok r ∧
    (r.next (initialState () 0)).jacobian = (fun _ => 1) ∧
    ∀ b ∈ bondsOf tetraNbs, (r.arrays.bonds b.b).stress = ⟨2, 0, 0, 0, -2, 0, 0, 0, 0⟩ ∧
      (r.arrays.bonds b.b).rotation = identity := by
  obtain ⟨D, hD⟩ := Verif.Assoc.correct_exists
  obtain ⟨r, hr⟩ := quad_defined D (M := elastic 3 1) (elastic_total 3 1) (elastic_total 3 1) 1 calm
    (fun k => pull0 *ᵥ corner k + 0) still (s := initialState () 0) rfl
  obtain ⟨hpre, hp⟩ := evaluation_parts hr
  obtain ⟨g1, g2⟩ := affine_pre hD hpre Verif.Assoc.tetra_within calm_grounded.flag (by norm_num [quad])
    (fun p hp => quad_placed rfl (fun _ => rfl) hp) (A := pull0) (a := 0) fun _ => rfl
  refine ⟨D, hD, r, hr, ?_, fun b hb => ?_⟩
  · funext p
    show r.pre.jacobian p = 1
    rw [hpre.jacobian]
    split
    · next hlt =>
      have hf : calm.flag p < 1 / 2 := by norm_num [calm]
      have e := g1 p hlt
      rw [hpre.grad, if_pos hlt, if_pos hf] at e
      rw [if_pos hf]
      generalize Verif.Assoc.gradientAt _ _ _ _ _ = L at e ⊢
      have e0 : L.xx = 1 := congrFun (congrFun e 0) 0
      have e1 : L.yy = -1 := congrFun (congrFun e 1) 1
      have e2 : L.zz = 0 := congrFun (congrFun e 2) 2
      simp [velGradTr, e0, e1, e2, initialState]
    · rfl
  · have e := g2 b hb
    rw [← hp.bondGrad b hb (calm_grounded.flag _)] at e
    obtain ⟨-, q2, q3⟩ := advance_parts (hp.bond b hb (calm_grounded.flag _))
    generalize r.bondGrad b.b = L at e q2 q3
    have e00 : L.xx = 1 := congrFun (congrFun e 0) 0
    have e01 : L.xy = 0 := congrFun (congrFun e 0) 1
    have e02 : L.xz = 0 := congrFun (congrFun e 0) 2
    have e10 : L.yx = 0 := congrFun (congrFun e 1) 0
    have e11 : L.yy = -1 := congrFun (congrFun e 1) 1
    have e12 : L.yz = 0 := congrFun (congrFun e 1) 2
    have e20 : L.zx = 0 := congrFun (congrFun e 2) 0
    have e21 : L.zy = 0 := congrFun (congrFun e 2) 1
    have e22 : L.zz = 0 := congrFun (congrFun e 2) 2
    rw [diag_rotation _ _ ⟨e01, e02, e10, e12, e20, e21⟩ (by simp [initialState, Site.start, identity])] at q2
    have q2 : (r.arrays.bonds b.b).rotation = identity := q2
    refine ⟨?_, q2⟩
    rw [q2] at q3
    have hD' : unrotated L identity = ⟨1, 0, 0, 0, -1, 0, 0, 0, 0⟩ := by
      apply toMatrix_injective
      rw [Verif.Correspondence.unrotated_eq, e, toMatrix_identity]
      ext i j
      fin_cases i <;> fin_cases j <;> simp [pull0, M9.toMatrix] <;> norm_num
    rw [hD'] at q3
    have q3 : (Outcome.ok (_, (), _) : Outcome (M9 × Unit × ℝ)) = _ := q3
    injection q3 with q3
    have q4 : _ = (r.arrays.bonds b.b).stress := congrArg Prod.fst q3
    rw [← q4]
    apply toMatrix_injective
    rw [Verif.Assoc.elastic_eq]
    ext i j
    fin_cases i <;> fin_cases j <;>
      simp [M9.toMatrix, initialState, Site.start, Tensor.zero, Verif.Correspondence.dev, Verif.Correspondence.mean, Verif.Correspondence.diagSum_eq,
        Verif.Correspondence.scaled, trace, Fin.sum_univ_three]

/-- In the state after it the block spins. -/
def swirl (k : Nat) : V3 := Verif.Assoc.spin0 *ᵥ corner k + 0

theorem quad_case : ∃ D : Decompose, D.Correct ∧ ∃ s : State Unit ℝ, Run quad D 1 (elastic 3 1) () 0 tetraNbs (Grounded tetraNbs) s ∧
    s.jacobian = (fun _ => 1) ∧ (∀ b ∈ bondsOf tetraNbs, (s.now.bonds b.b).stress = ⟨2, 0, 0, 0, -2, 0, 0, 0, 0⟩ ∧
      (s.now.bonds b.b).rotation = identity) ∧
    ∃ r, evaluation quad D 1 (elastic 3 1) 1 calm corner swirl still s tetraNbs.length (encode tetraNbs) = .ok r := by
  obtain ⟨D, hD, r, hr, hJ, hs⟩ := quad_stretched
  exact ⟨D, hD, r.next _, .step .start calm_grounded hr, hJ, hs, quad_defined D (elastic_total 3 1) (elastic_total 3 1) 1 calm swirl still hJ⟩

/-! ### Two points -/

/-- A routine that decomposes diagonal matrices in the obvious way. -/
def plain : Decompose := fun q M =>
  if h : ∃ w : Fin q → ℝ, M = diagonal w ∧ ∀ k, 0 ≤ w k then ⟨1, h.choose, 1⟩ else Verif.Assoc.correct_exists.choose q M

theorem plain_correct : plain.Correct := by
  intro q M hM
  unfold plain
  split
  · next h =>
    obtain ⟨h1, h2⟩ := h.choose_spec
    refine ⟨?_, ?_, ?_, h2⟩
    · simpa using h1
    · simp
    · simp
  · exact Verif.Assoc.correct_exists.choose_spec q M hM

theorem plain_diagonal {q : Nat} (w : Fin q → ℝ) (hw : ∀ k, 0 ≤ w k) : plain q (diagonal w) = ⟨1, w, 1⟩ := by
  have h : ∃ w' : Fin q → ℝ, (diagonal w : Matrix (Fin q) (Fin q) ℝ) = diagonal w' ∧ ∀ k, 0 ≤ w' k := ⟨w, rfl, hw⟩
  unfold plain
  rw [dif_pos h]
  have := h.choose_spec.1
  rw [← diagonal_injective this]

/-- Two points at distance one; the influence function knows no horizon. -/
def twin : Block := ⟨fun _ => 1, 1 / 2, fun _ _ => 1⟩

def twinNbs : List (List Nat) := [[1], [0]]

def twinY (k : Nat) : V3 := if k = 1 then ![1, 0, 0] else 0

theorem twin_bonds : bondsOf twinNbs = [⟨0, 1, 0⟩, ⟨1, 0, 1⟩] := by
  decide

theorem twin_defined {α β : Type} {M : Material α β} (hn : ∀ dt D s a o, ∃ r, M.node dt D s a o = .ok r)
    (hb : ∀ dt D s a o, ∃ r, M.bond dt D s a o = .ok r) (dt : ℝ) (H : Harm) (v : Nat → V3) (g : Ghosts) {s : State α β}
    (hJ : s.jacobian = fun _ => 1) :
    ∃ r, evaluation twin plain 1 M dt H twinY v g s twinNbs.length (encode twinNbs) = .ok r := by
  obtain ⟨P, hP, h⟩ := evaluation_defined (B := twin) (D := plain) one_ne_zero (by norm_num [twin]) hn hb dt H twinY v g s
    (nbs := twinNbs)
  have hp := precompute_parts (bondsOf_nodup twinNbs) hP
  have key : ∀ p < twinNbs.length, P.w0 p ≠ 0 := by
    intro p hlt
    rw [hp.w0, if_pos hlt, undamagedVolume_eq, Verif.Assoc.bonds_at_sum twinNbs hlt, hJ]
    have hp : p < 2 := hlt
    interval_cases p <;> simp [twinNbs, twin, current]
  refine h fun b hbm _ => ?_
  rw [twin_bonds] at hbm
  simp only [List.mem_cons, List.not_mem_nil, or_false] at hbm
  rcases hbm with rfl | rfl
  · refine ⟨fun e => ?_, fun _ => ⟨key 0 (by decide), key 1 (by decide)⟩⟩
    have := congrFun e 0
    norm_num [twinY] at this
  · refine ⟨fun e => ?_, fun _ => ⟨key 1 (by decide), key 0 (by decide)⟩⟩
    have := congrFun e 0
    norm_num [twinY] at this

theorem qVector_one (d : V3) (delta : ℝ) (c : Fin 3) : qVector 1 d delta c = d c / delta := by
  fin_cases c
  · show 1 * (d 0 / delta) ^ 1 * (d 1 / delta) ^ 0 * (d 2 / delta) ^ 0 = _
    simp
  · show 1 * (d 0 / delta) ^ 0 * (d 1 / delta) ^ 1 * (d 2 / delta) ^ 0 = _
    simp
  · show 1 * (d 0 / delta) ^ 0 * (d 1 / delta) ^ 0 * (d 2 / delta) ^ 1 = _
    simp

theorem twin_moment {p : Nat} (hp : p < 2) :
    momentOf (current twin (fun _ => 1) twinY) 1 (influenceOf (current twin (fun _ => 1) twinY) fun _ => 0)
      (bondsAt (bondsOf twinNbs) p) = diagonal (![4, 0, 0] : Fin 3 → ℝ) := by
  rw [twin_bonds]
  ext i j
  have hd : dim 1 = 3 := rfl
  have key : ∀ (i j : Fin 3), momentOf (current twin (fun _ => 1) twinY) 1 (influenceOf (current twin (fun _ => 1) twinY) fun _ => 0)
      (bondsAt [⟨0, 1, 0⟩, ⟨1, 0, 1⟩] p) i j = diagonal (![4, 0, 0] : Fin 3 → ℝ) i j := by
    intro i j
    unfold momentOf
    simp only [qVector_one]
    interval_cases p <;> fin_cases i <;> fin_cases j <;>
      norm_num [bondsAt, influenceOf, current, twin, xi, twinY, diagonal]
  exact key i j

theorem twin_inverse : (invertAndCond plain (diagonal (![4, 0, 0] : Fin 3 → ℝ)) (1 / 10 ^ 6 * (1 / 2) * (1 / 2) * (1 / 2))).2 =
    diagonal ![1 / 4, 0, 0] := by
  unfold invertAndCond
  rw [plain_diagonal _ fun k => by fin_cases k <;> simp]
  ext i j
  have h3 : List.finRange 3 = [0, 1, 2] := rfl
  simp only [h3, List.foldl_cons, List.foldl_nil, cons_val_zero, cons_val_one, cons_val_two, Matrix.one_apply]
  fin_cases i <;> fin_cases j <;> norm_num [diagonal]

theorem twin_phi {H : Harm} (hd : H.bondDamage = fun _ => 0) {w : Weights} {b : Bond} (hb : b ∈ bondsOf twinNbs)
    (h : Verif.Assoc.Current (current twin (fun _ => 1) twinY) plain 1 H.bondDamage (bondsOf twinNbs) w b.i) :
    w.phi b.b = twinY b.j - twinY b.i := by
  have hm : b ∈ bondsAt (bondsOf twinNbs) b.i := List.mem_filter.mpr ⟨hb, by simp⟩
  rw [(h b hm).2, hd]
  have hi : b.i < 2 := by
    rw [twin_bonds] at hb
    simp only [List.mem_cons, List.not_mem_nil, or_false] at hb
    rcases hb with rfl | rfl <;> norm_num
  funext c
  rw [Verif.Assoc.phi_eq one_ne_zero rfl, twin_moment hi]
  show ∑ k : Fin 3, influenceOf (current twin (fun _ => 1) twinY) (fun _ => 0) b *
    (invertAndCond plain (diagonal (![4, 0, 0] : Fin 3 → ℝ)) (1 / 10 ^ 6 * (1 / 2) * (1 / 2) * (1 / 2))).2 c k *
    qVector 1 (xi (current twin (fun _ => 1) twinY) b) (1 / 2) k / (1 / 2) = _
  rw [twin_inverse]
  simp only [qVector_one, Fin.sum_univ_three]
  rw [twin_bonds] at hb
  simp only [List.mem_cons, List.not_mem_nil, or_false] at hb
  rcases hb with rfl | rfl <;> fin_cases c <;>
    simp [diagonal, influenceOf, twin, current, xi, twinY] <;> norm_num

/-- A step in which the points move apart; point 0 does not fly. -/
theorem twin_step {H : Harm} (hd : H.bondDamage = fun _ => 0) (h0 : H.flag 0 = -1) (h1 : H.flag 1 = -1 ∨ H.flag 1 = 1) {g : Ghosts}
    {r : Result Unit ℝ}
    (hr : evaluation twin plain 1 (elastic 1 0) 1 H twinY twinY g (initialState () 0) twinNbs.length (encode twinNbs) = .ok r) :
    r.force 1 = ![if H.flag 1 = 1 then -1 else -2, 0, 0] := by
  obtain ⟨hpre, hp⟩ := evaluation_parts hr
  have hC : current twin (initialState () (0 : ℝ)).jacobian twinY = current twin (fun _ => 1) twinY := rfl
  rw [hC] at hpre hp
  have hb0 : (⟨0, 1, 0⟩ : Bond) ∈ bondsOf twinNbs := by rw [twin_bonds]; simp
  have hb1 : (⟨1, 0, 1⟩ : Bond) ∈ bondsOf twinNbs := by rw [twin_bonds]; simp
  have hg : ∀ p < 2, H.flag p < 1 / 2 → r.pre.grad p = ⟨1, 0, 0, 0, 0, 0, 0, 0, 0⟩ := by
    intro p hlt hf
    rw [hpre.grad, if_pos (show p < twinNbs.length from hlt), if_pos hf]
    have hph := fun (b : Bond) hb (e : b.i = p) => twin_phi hd hb (e ▸ hpre.current p hlt hf)
    unfold Verif.Assoc.gradientAt
    rw [twin_bonds]
    interval_cases p
    · have := hph _ hb0 rfl
      simp [bondsAt, this, Verif.Correspondence.addOuter, current, twin, twinY, Tensor.zero]
    · have := hph _ hb1 rfl
      simp [bondsAt, this, Verif.Correspondence.addOuter, current, twin, twinY, Tensor.zero]
  have hB : ∀ b ∈ bondsOf twinNbs, H.flag b.i < 0 → (r.bondCauchy b.b).toMatrix = 1 := by
    intro b hb hf
    have hgrad : r.bondGrad b.b = ⟨1, 0, 0, 0, 0, 0, 0, 0, 0⟩ := by
      rw [hp.bondGrad b hb hf]
      have hall : r.pre.grad 1 = ⟨1, 0, 0, 0, 0, 0, 0, 0, 0⟩ ∨ r.pre.grad 1 = Tensor.zero := by
        rcases h1 with h1 | h1
        · exact Or.inl (hg 1 one_lt_two (by rw [h1]; norm_num))
        · right
          rw [hpre.grad, if_pos (by decide), if_neg (by rw [h1]; norm_num)]
      have g0 := hg 0 two_pos (by rw [h0]; norm_num)
      rw [twin_bonds] at hb
      simp only [List.mem_cons, List.not_mem_nil, or_false] at hb
      unfold bondGradient Verif.Assoc.corrected Verif.Assoc.mean
      rcases hb with rfl | rfl <;> rcases hall with e | e <;> rw [g0, e] <;>
        simp [Tensor.zero, xi, current, twinY, lenSq] <;> norm_num
    obtain ⟨-, q2, q3⟩ := advance_parts (hp.bond b hb hf)
    rw [hgrad] at q2 q3
    rw [diag_rotation _ _ (by simp) (by simp [initialState, Site.start, identity])] at q2
    have q2 : (r.arrays.bonds b.b).rotation = identity := q2
    rw [q2] at q3
    have hD' : unrotated ⟨1, 0, 0, 0, 0, 0, 0, 0, 0⟩ identity = ⟨1, 0, 0, 0, 0, 0, 0, 0, 0⟩ := by
      apply toMatrix_injective
      rw [Verif.Correspondence.unrotated_eq, toMatrix_identity]
      ext i j
      fin_cases i <;> fin_cases j <;> simp [M9.toMatrix] <;> norm_num
    rw [hD'] at q3
    have q3 : (Outcome.ok (_, (), _) : Outcome (M9 × Unit × ℝ)) = _ := q3
    injection q3 with q3
    have q4 : _ = (r.arrays.bonds b.b).stress := congrArg Prod.fst q3
    have q5 : (r.arrays.bonds b.b).stress.toMatrix = 1 := by
      rw [← q4, Verif.Assoc.elastic_eq]
      ext i j
      fin_cases i <;> fin_cases j <;>
        simp [M9.toMatrix, initialState, Site.start, Tensor.zero, Verif.Correspondence.diagSum_eq,
          Verif.Correspondence.scaled, trace, Fin.sum_univ_three]
    rw [hp.bondCauchy, Verif.Correspondence.rotateStress, Verif.Correspondence.toMatrix_mm, Verif.Correspondence.toMatrix_mmT, q2, q5,
      toMatrix_identity]
    simp
  have hom : ∀ b ∈ bondsOf twinNbs, r.pre.weights.omega b.b = 1 := by
    intro b hb
    rw [hpre.omega b hb, hd]
    simp [influenceOf, current, twin]
  have hw : ∀ p < 2, r.pre.w0 p = 1 := by
    intro p hlt
    rw [hpre.w0, if_pos (show p < twinNbs.length from hlt), undamagedVolume_eq, Verif.Assoc.bonds_at_sum twinNbs hlt]
    interval_cases p <;> simp [twinNbs, twin, current]
  have hT : ∀ b ∈ bondsOf twinNbs, (Verif.Assoc.transverse (xi (current twin (fun _ => 1) twinY) b)).toMatrix *ᵥ
      (twinY b.j - twinY b.i) = 0 := by
    intro b hb
    rw [twin_bonds] at hb
    simp only [List.mem_cons, List.not_mem_nil, or_false] at hb
    funext c
    rcases hb with rfl | rfl <;> fin_cases c <;>
      simp [M9.toMatrix, Verif.Assoc.transverse, xi, current, twinY, lenSq, mulVec, dotProduct, Fin.sum_univ_three]
  have hF : ∀ b ∈ bondsOf twinNbs, H.flag b.i < 0 → ∀ x, forceBond (current twin (fun _ => 1) twinY) r.pre.w0 r.pre.weights r.bondCauchy
      r.integral b = .ok x → x = twinY b.j - twinY b.i := by
    intro b hb hf x hx
    have hi : b.i < 2 := (bonds_within (N := 2) (nbs := twinNbs) (by unfold Within twinNbs; simp) b hb).1
    rw [(Verif.Assoc.forceBond_ok hx).1, Verif.Assoc.pairForce, if_pos (by rw [hom b hb]; norm_num), hB b hb hf, hom b hb, hw _ hi,
      one_mulVec, twin_phi hd hb (hpre.current b.i hi (hf.trans (by norm_num)))]
    have hS : (r.integral b.i).toMatrix = (Verif.Assoc.transverse (xi (current twin (fun _ => 1) twinY) b)).toMatrix := by
      rw [((Verif.Assoc.integral_points _ hp.integral b.i).1 (mem_livePoints.mpr ⟨hi, hf⟩)).1]
      have hat : bondsAt (bondsOf twinNbs) b.i = [b] := by
        rw [twin_bonds] at hb ⊢
        simp only [List.mem_cons, List.not_mem_nil, or_false] at hb
        rcases hb with rfl | rfl <;> rfl
      have hj : b.j < 2 := (bonds_within (N := 2) (nbs := twinNbs) (by unfold Within twinNbs; simp) b hb).2
      rw [hat, List.map_singleton, List.sum_singleton, Verif.Assoc.share, if_pos (by rw [hom b hb]; norm_num), hom b hb, hB b hb hf,
        Verif.Assoc.half, hw _ hi, hw _ hj, Matrix.one_mul]
      norm_num [current, twin]
    rw [hS, hT b hb, add_zero]
    have hl : lenSq (xi (current twin (fun _ => 1) twinY) b) = 1 := by
      rw [twin_bonds] at hb
      simp only [List.mem_cons, List.not_mem_nil, or_false] at hb
      rcases hb with rfl | rfl <;> simp [lenSq, xi, current, twinY]
    rw [hl]
    simp [xi, current]
  have hfo := hp.force
  have hlive0 : H.flag 0 < 0 := by rw [h0]; norm_num
  rcases h1 with h1 | h1
  · have hlive1 : H.flag 1 < 0 := by rw [h1]; norm_num
    rw [show liveBonds H (bondsOf twinNbs) = [⟨0, 1, 0⟩, ⟨1, 0, 1⟩] by
      rw [twin_bonds, liveBonds, List.filter_eq_self]
      simp [hlive0, hlive1], scatter] at hfo
    cases hx : forceBond (current twin (fun _ => 1) twinY) r.pre.w0 r.pre.weights r.bondCauchy r.integral ⟨0, 1, 0⟩ with
    | ok x =>
      rw [hx] at hfo
      simp only [scatter] at hfo
      cases hx' : forceBond (current twin (fun _ => 1) twinY) r.pre.w0 r.pre.weights r.bondCauchy r.integral ⟨1, 0, 1⟩ with
      | ok x' =>
        rw [hx'] at hfo
        injection hfo with hfo
        rw [← hfo, hF _ hb0 hlive0 _ hx, hF _ hb1 hlive1 _ hx']
        funext c
        fin_cases c <;> simp [scatterStep, Function.update, twinY, current, twin, initialState, h1] <;> norm_num
      | fail e => rw [hx'] at hfo; cases hfo
      | ub => rw [hx'] at hfo; cases hfo
    | fail e => rw [hx] at hfo; cases hfo
    | ub => rw [hx] at hfo; cases hfo
  · rw [show liveBonds H (bondsOf twinNbs) = [⟨0, 1, 0⟩] by
      rw [twin_bonds, liveBonds]
      norm_num [hlive0, h1], scatter] at hfo
    cases hx : forceBond (current twin (fun _ => 1) twinY) r.pre.w0 r.pre.weights r.bondCauchy r.integral ⟨0, 1, 0⟩ with
    | ok x =>
      rw [hx] at hfo
      simp only [scatter] at hfo
      injection hfo with hfo
      rw [← hfo, hF _ hb0 hlive0 _ hx]
      funext c
      fin_cases c <;> simp [scatterStep, Function.update, twinY, current, twin, initialState, h1] <;> norm_num
    | fail e => rw [hx] at hfo; cases hfo
    | ub => rw [hx] at hfo; cases hfo

end Verif.Hypo
