import Verif.Lps.Props

/-!
# The linear peridynamic solid: cases

Cases that meet the hypotheses of C135 and C136, and what is false: moments about the present positions, rotations that are not
infinitesimal, and broken bonds with the improved quadrature.
-/

noncomputable section

namespace Verif.Lps

open Verif Verif.Neigh Verif.Mech Verif.Energy
open scoped Classical Matrix

theorem setUp_exists (C : Config) (nbs : List (List Nat)) : ∃ S, SetUp C nbs S := by
  unfold SetUp prepare
  rw [visited_encode]
  exact ⟨_, ⟨0, 0⟩, rfl⟩

/-- Two points at distance one. -/
def bar (y : Nat → V3) (d : ℝ) : Config where
  x := fun k => if k = 1 then ![1, 0, 0] else 0
  y := y
  v := fun _ => 1
  m := fun _ => 1
  damage := fun _ => d
  omega := fun _ _ => 1
  horizon := 2
  thermal := none

/-- Each is the neighbor of the other. -/
def barNbs : List (List Nat) := [[1], [0]]

theorem bar_bonds : bondsOf barNbs = [⟨0, 1, 0⟩, ⟨1, 0, 1⟩] := by
  simp [bondsOf, bondsFrom, barNbs, pointBonds]

theorem bar_at : bondsAt barNbs 0 = [⟨0, 1, 0⟩] ∧ bondsAt barNbs 1 = [⟨1, 0, 1⟩] := by
  unfold bondsAt
  rw [bar_bonds]
  constructor <;> simp

theorem bar_within : Within barNbs 2 := ⟨by decide, by simp [barNbs]⟩

theorem bar_zeta (y : Nat → V3) (d : ℝ) {b : Bond} (hb : b ∈ bondsOf barNbs) : (bar y d).zeta b = 1 := by
  rw [bar_bonds] at hb
  simp only [List.mem_cons, List.not_mem_nil, or_false] at hb
  rcases hb with rfl | rfl <;> simp [Config.zeta, bar, len]

theorem bar_stored {y : Nat → V3} {d : ℝ} {S : Stored} (h : SetUp (bar y d) barNbs S) :
    S.infl 0 = 1 ∧ S.infl 1 = 1 ∧ S.m 0 = 1 ∧ S.m 1 = 1 := by
  obtain ⟨h1, h2⟩ := setUp_spec h
  have b0 : (⟨0, 1, 0⟩ : Bond) ∈ bondsOf barNbs := by rw [bar_bonds]; simp
  have b1 : (⟨1, 0, 1⟩ : Bond) ∈ bondsOf barNbs := by rw [bar_bonds]; simp
  refine ⟨h1 _ b0, h1 _ b1, ?_, ?_⟩
  · rw [h2 0 (by decide), bar_at.1, List.map_singleton, List.sum_singleton, bar_zeta y d b0]
    simp [Config.om, bar]
  · rw [h2 1 (by decide), bar_at.2, List.map_singleton, List.sum_singleton, bar_zeta y d b1]
    simp [Config.om, bar]

theorem bar_ready {y : Nat → V3} {d : ℝ} {S : Stored} (h : SetUp (bar y d) barNbs S) : Ready (bar y d) S barNbs := by
  obtain ⟨_, _, h0, h1⟩ := bar_stored h
  intro p j hpj
  obtain ⟨b, hb, rfl, rfl⟩ := bond_of_has hpj
  have hz := bar_zeta y d hb
  refine ⟨?_, fun he => ?_⟩
  · rw [bar_bonds] at hb
    simp only [List.mem_cons, List.not_mem_nil, or_false] at hb
    rcases hb with rfl | rfl
    · rw [h0]; exact one_ne_zero
    · rw [h1]; exact one_ne_zero
  · rw [Config.zeta, he, sub_self, len_eq_zero.2 rfl] at hz
    exact zero_ne_one hz

/-- What the forces of the two points are. -/
theorem bar_force {y : Nat → V3} {K mu : ℝ} {S : Stored} (hS : SetUp (bar y 0) barNbs S) {ghost : (Nat → ℝ) → Nat → ℝ}
    {theta : Nat → ℝ} {F : Nat → V3}
    (h : evaluate (bar y 0) .cells K mu S barNbs.length (encode barNbs) ghost = .ok (theta, F)) :
    F 0 = ![18 * K * (y 1 0 - y 0 0 - 1), 0, 0] ∧ F 1 = ![-(18 * K * (y 1 0 - y 0 0 - 1)), 0, 0] := by
  obtain ⟨i0, i1, m0, m1⟩ := bar_stored hS
  have b0 : (⟨0, 1, 0⟩ : Bond) ∈ bondsOf barNbs := by rw [bar_bonds]; simp
  have b1 : (⟨1, 0, 1⟩ : Bond) ∈ bondsOf barNbs := by rw [bar_bonds]; simp
  have a0 : along (bar y 0) (disp (bar y 0)) ⟨0, 1, 0⟩ = y 1 0 - y 0 0 - 1 := by
    simp [along, xd, disp, bar, _root_.dotProduct, Fin.sum_univ_three, Matrix.vecHead]
    ring
  have a1 : along (bar y 0) (disp (bar y 0)) ⟨1, 0, 1⟩ = y 1 0 - y 0 0 - 1 := by
    simp [along, xd, disp, bar, _root_.dotProduct, Fin.sum_univ_three, Matrix.vecHead]
    ring
  have d0 : dil (bar y 0) S barNbs (disp (bar y 0)) 0 = 3 * (y 1 0 - y 0 0 - 1) := by
    unfold dil
    rw [bar_at.1, List.map_singleton, List.sum_singleton, a0, m0, wt, i0]
    simp [bar]
  have d1 : dil (bar y 0) S barNbs (disp (bar y 0)) 1 = 3 * (y 1 0 - y 0 0 - 1) := by
    unfold dil
    rw [bar_at.2, List.map_singleton, List.sum_singleton, a1, m1, wt, i1]
    simp [bar]
  have c0 : coef (bar y 0) K mu S (dil (bar y 0) S barNbs (disp (bar y 0))) ⟨0, 1, 0⟩ = 9 * K * (y 1 0 - y 0 0 - 1) := by
    unfold coef
    rw [a0, bar_zeta y 0 b0, d0, i0, m0]
    simp [bar]
    ring
  have c1 : coef (bar y 0) K mu S (dil (bar y 0) S barNbs (disp (bar y 0))) ⟨1, 0, 1⟩ = 9 * K * (y 1 0 - y 0 0 - 1) := by
    unfold coef
    rw [a1, bar_zeta y 0 b1, d1, i1, m1]
    simp [bar]
    ring
  have x0 : xd (bar y 0) ⟨0, 1, 0⟩ = ![1, 0, 0] := by simp [xd, bar]
  have x1 : xd (bar y 0) ⟨1, 0, 1⟩ = ![-1, 0, 0] := by simp [xd, bar]
  constructor
  · rw [evaluate_force h 0, bar_bonds]
    simp only [List.map_cons, List.map_nil, List.sum_cons, List.sum_nil, c0, c1, x0, x1, pull]
    simp [selfVol, nbrVol, bar]
    ring
  · rw [evaluate_force h 1, bar_bonds]
    simp only [List.map_cons, List.map_nil, List.sum_cons, List.sum_nil, c0, c1, x0, x1, pull]
    simp [selfVol, nbrVol, bar]
    ring

/-- The bar, stretched to twice its length: the hypotheses of C135 and C136 are met, and there are forces. -/
example : ∃ S theta F, SetUp (bar (fun k => if k = 1 then ![2, 0, 0] else 0) 0) barNbs S ∧ Within barNbs 2 ∧
    evaluate (bar (fun k => if k = 1 then ![2, 0, 0] else 0) 0) .cells 2 1 S barNbs.length (encode barNbs) (fun t => t) =
      .ok (theta, F) ∧ F 0 = ![36, 0, 0] := by
  obtain ⟨S, hS⟩ := setUp_exists (bar (fun k => if k = 1 then ![2, 0, 0] else 0) 0) barNbs
  obtain ⟨theta, F, h⟩ := C135_defined 2 1 (bar_ready hS) (fun t => t)
  refine ⟨S, theta, F, hS, bar_within, h, ?_⟩
  rw [(bar_force hS h).1]
  norm_num

/-- The bar with its bonds broken: no force at its ends. -/
example : ∃ S theta F, SetUp (bar (fun k => if k = 1 then ![2, 0, 0] else 0) 1) barNbs S ∧
    evaluate (bar (fun k => if k = 1 then ![2, 0, 0] else 0) 1) .cells 2 1 S barNbs.length (encode barNbs) (fun t => t) =
      .ok (theta, F) ∧ F 0 = 0 := by
  obtain ⟨S, hS⟩ := setUp_exists (bar (fun k => if k = 1 then ![2, 0, 0] else 0) 1) barNbs
  obtain ⟨theta, F, h⟩ := C135_defined 2 1 (bar_ready hS) (fun t => t)
  exact ⟨S, theta, F, hS, h, C135_broken h fun _ _ _ _ _ _ _ => rfl⟩

/-- The numbers of the bar are sound, and its lengths are not kept when it is stretched. -/
example : Sound (bar 0 0) 2 1 ∧ ¬ LengthsKept (bar 0 0) barNbs (fun k => if k = 1 then ![1, 0, 0] else 0) := by
  refine ⟨⟨by norm_num, by norm_num, fun _ => one_pos, fun _ _ => zero_le_one, fun _ => ⟨le_refl _, zero_le_one⟩⟩, ?_⟩
  intro h
  have := h 0 [1] 0 1 rfl rfl (by simp [bar]) (by simp [bar])
  simp [bar, _root_.dotProduct, Fin.sum_univ_three] at this

/-- A quarter turn. -/
def turn : Matrix (Fin 3) (Fin 3) ℝ := !![0, -1, 0; 1, 0, 0; 0, 0, 1]

theorem turn_rotation : turnᵀ * turn = 1 ∧ turn.det = 1 := by
  constructor
  · ext i j
    fin_cases i <;> fin_cases j <;> simp [turn, Matrix.mul_apply, Fin.sum_univ_three]
  · simp [turn, Matrix.det_fin_three]

/-- The bar after a quarter turn. -/
def turned : Config := bar (fun k => turn *ᵥ (if k = 1 then ![1, 0, 0] else 0)) 0

theorem turned_y : turned.y 1 0 - turned.y 0 0 - 1 = -1 ∧ turned.y 0 = 0 ∧ turned.y 1 = ![0, 1, 0] := by
  refine ⟨?_, ?_, ?_⟩
  · simp [turned, bar, turn, Matrix.mulVec, _root_.dotProduct, Fin.sum_univ_three]
  · simp [turned, bar]
  · funext c
    fin_cases c <;> simp [turned, bar, turn, Matrix.mulVec, _root_.dotProduct, Fin.sum_univ_three]

/-- **C136**, what is false: a body that has been turned, and is otherwise as it was, has forces. -/
theorem C136_turned {K : ℝ} (hK : K ≠ 0) (mu : ℝ) : ∃ (C : Config) (nbs : List (List Nat)) (S : Stored)
    (Q : Matrix (Fin 3) (Fin 3) ℝ) (theta : Nat → ℝ) (F : Nat → V3), SetUp C nbs S ∧ Qᵀ * Q = 1 ∧ Q.det = 1 ∧
    (∀ k, C.y k = Q *ᵥ C.x k) ∧ evaluate C .cells K mu S nbs.length (encode nbs) (fun t => t) = .ok (theta, F) ∧ F 1 ≠ 0 := by
  obtain ⟨S, hS⟩ := setUp_exists turned barNbs
  obtain ⟨theta, F, h⟩ := C135_defined K mu (bar_ready hS) (fun t => t)
  refine ⟨turned, barNbs, S, turn, theta, F, hS, turn_rotation.1, turn_rotation.2, fun k => rfl, h, ?_⟩
  intro h0
  have hF : F 1 = ![-(18 * K * (turned.y 1 0 - turned.y 0 0 - 1)), 0, 0] := (bar_force hS h).2
  have h1 := congrFun (hF.symm.trans h0) 0
  rw [Matrix.cons_val_zero, turned_y.1, Pi.zero_apply] at h1
  apply hK
  linarith

/-- **C135**, what is false: about the present positions the moments do not add up to zero. -/
theorem C135_turned {K : ℝ} (hK : K ≠ 0) (mu : ℝ) : ∃ (C : Config) (nbs : List (List Nat)) (S : Stored)
    (theta : Nat → ℝ) (F : Nat → V3), SetUp C nbs S ∧ Within nbs 2 ∧
    evaluate C .cells K mu S nbs.length (encode nbs) (fun t => t) = .ok (theta, F) ∧ totalMoment C.y C.v F 2 ≠ 0 := by
  obtain ⟨S, hS⟩ := setUp_exists turned barNbs
  obtain ⟨theta, F, h⟩ := C135_defined K mu (bar_ready hS) (fun t => t)
  refine ⟨turned, barNbs, S, theta, F, hS, bar_within, h, ?_⟩
  have hF : F 1 = ![-(18 * K * (turned.y 1 0 - turned.y 0 0 - 1)), 0, 0] := (bar_force hS h).2
  rw [turned_y.1] at hF
  intro h0
  have h3 := congrFun h0 2
  rw [totalMoment, Finset.sum_range_succ, Finset.sum_range_one, turned_y.2.1, turned_y.2.2, hF] at h3
  have hv : turned.v 1 = 1 := rfl
  rw [map_zero, LinearMap.zero_apply, smul_zero, zero_add, hv, one_smul, cross_apply] at h3
  simp at h3
  exact hK h3

/-- **C135**, what is false with the improved quadrature: of a bond that is broken the part with the dilatation and the weighted volume of
the neighbor is still applied. -/
theorem C135_quadrature (K : ℝ) {mu : ℝ} (hmu : mu ≠ 0) : ∃ (C : Config) (w : Nat → ℝ) (nbs : List (List Nat)) (S0 S : Stored)
    (theta : Nat → ℝ) (F : Nat → V3), (∀ b, C.damage b = 1) ∧
    prepare C (.quadrature w) none nbs.length (encode nbs) S0 = .ok S ∧
    evaluate C (.quadrature w) K mu S nbs.length (encode nbs) (fun t => t) = .ok (theta, F) ∧ F 0 ≠ 0 := by
  set C := bar (fun k => if k = 1 then ![2, 0, 0] else 0) 1 with hC
  have hprep : ∀ w, ∃ S, prepare C (.quadrature w) none barNbs.length (encode barNbs) ⟨0, 0⟩ = .ok S ∧ SetUp C barNbs S := by
    intro w
    obtain ⟨S, hS⟩ : ∃ S, prepare C .cells none barNbs.length (encode barNbs) ⟨0, 0⟩ = .ok S := by
      unfold prepare
      rw [visited_encode]
      exact ⟨_, rfl⟩
    refine ⟨S, ?_, ⟨_, hS⟩⟩
    rw [← hS]
    rfl
  obtain ⟨S, hS, hS'⟩ := hprep fun _ => 1
  obtain ⟨i0, i1, m0, m1⟩ := bar_stored hS'
  have n0 : normSquared C ⟨0, 1, 0⟩ = 1 := by simp [normSquared, xd, hC, bar]
  have n1 : normSquared C ⟨1, 0, 1⟩ = 1 := by simp [normSquared, xd, hC, bar]
  have hs : ∀ bs, dilatationSum C (.quadrature fun _ => 1) S bs = 0 := by
    intro bs
    unfold dilatationSum
    rw [Pals.foldl_add, zero_add]
    apply List.sum_eq_zero
    intro x hx
    obtain ⟨b, _, rfl⟩ := List.mem_map.1 hx
    simp [hC, bar]
  have hp : precompute C (.quadrature fun _ => 1) S barNbs.length (encode barNbs) = .ok 0 := by
    unfold precompute
    rw [visited_encode]
    simp only
    rw [if_neg (by
      rintro ⟨b, hb, h0⟩
      rw [bar_bonds] at hb
      simp only [List.mem_cons, List.not_mem_nil, or_false] at hb
      rcases hb with rfl | rfl
      · exact one_ne_zero (m0.symm.trans h0)
      · exact one_ne_zero (m1.symm.trans h0))]
    congr 1
    funext p
    simp [hs]
  have hd : ∀ b, C.damage b = 1 := fun _ => rfl
  have key : ∃ F, force C (.quadrature fun _ => 1) K mu S 0 barNbs.length (encode barNbs) = .ok F ∧ F 0 0 = 15 * mu := by
    unfold force
    rw [visited_encode, bar_bonds]
    simp only [forceLoop, bondStep, n0, n1, m0, m1, one_ne_zero, or_self, if_false]
    refine ⟨_, rfl, ?_⟩
    have ht : term C K mu S 0 ⟨0, 1, 0⟩ 1 0 = 15 * mu := by
      unfold term
      simp only [m1, n0, i0]
      simp [xd, ud, hC, bar]
      norm_num
    simp [Function.update_apply, hd, ht]
  obtain ⟨F, hF, hF0⟩ := key
  refine ⟨C, fun _ => 1, barNbs, ⟨0, 0⟩, S, 0, F, hd, hS, ?_, ?_⟩
  · unfold evaluate
    rw [hp]
    have : (fun p => if p < barNbs.length then (0 : Nat → ℝ) p else (fun t : Nat → ℝ => t) 0 p) = (0 : Nat → ℝ) := by
      funext p
      simp
    simp only [this, hF]
  · intro h0
    rw [h0] at hF0
    apply hmu
    simp only [Pi.zero_apply] at hF0
    linarith

end Verif.Lps
