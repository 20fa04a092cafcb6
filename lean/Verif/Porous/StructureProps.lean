import Verif.Porous.Structure
import Verif.Porous.Props

/-!
# C235: the structure of the tangent of the coupled material

The block of the pressures is the operator that takes pressures to flows: symmetric, dissipative, of the sign pattern of
diffusion.  Columns are balanced, and translations are null vectors.
-/

noncomputable section

namespace Verif.Porous

open Verif Verif.Neigh Verif.Mech Verif.Tangent Verif.Fad
open Verif.Diffusion (Fluid viscosityAt)
open scoped Classical Topology

theorem block_apply {B : Body} {X : State} (hvol : X.vol = B.solid.v) {S : Scratch} {parts : List Part} (hv : ∀ p ∈ parts, p.Valid)
    (hn : ∀ h ∈ allHoods parts, h.Nodup) {A : Nat → Finset Nat} {M : Sparse}
    (h : coupledTangent none .full B X S (parts.map Part.proc) (Sparse.zero A) = .ok M) {N : Nat}
    (hN : ∀ h ∈ allHoods parts, ∀ g ∈ h, g < N) (q : Nat → ℝ) (I : Nat) :
    ∑ J ∈ Finset.range N, M.val (4 * I + 3) (4 * J + 3) * q J =
      ((allHoods parts).map fun h => flowForm B X.y h (spike I) q).sum := by
  have e : ∀ J, M.val (4 * I + 3) (4 * J + 3) * q J =
      ((allHoods parts).map fun h => flowForm B X.y h (spike I) (spike J) * q J).sum := by
    intro J
    rw [pressure_block hvol hv hn h, List.sum_map_mul_right]
  simp only [e]
  rw [list_sum_comm]
  congr 1
  apply List.map_congr_left
  intro g hg
  exact flowForm_sum B X.y (allHoods_pos hv hg) (hN g hg) _ _

/-- **C235** The block of the pressures applied to any pressures `q` is the flow, density times volume, that these pressures
would cause in the present configuration.  (There are `N` points, and the volumes in the data of the material are those the
entries are multiplied by.) -/
theorem C235_flow_operator (B : Body) (X : State) (hvol : X.vol = B.solid.v) (S : Scratch) (parts : List Part)
    (hv : ∀ p ∈ parts, p.Valid) (hn : ∀ h ∈ allHoods parts, h.Nodup) (A : Nat → Finset Nat) (M : Sparse)
    (h : coupledTangent none .full B X S (parts.map Part.proc) (Sparse.zero A) = .ok M) (N : Nat)
    (hN : ∀ h ∈ allHoods parts, ∀ g ∈ h, g < N) (q : Nat → ℝ) : ∃ f, totalRates (coupledRates B) { X with p := q } (allHoods parts) = .ok f ∧
    ∀ I, ∑ J ∈ Finset.range N, M.val (4 * I + 3) (4 * J + 3) * q J = X.vol I * f.2 I := by
  obtain ⟨h1, _⟩ := adTangent_ok hv hn (show adTangent .full (coupledAd B) X S _ _ = _ from h)
  have hk : ∀ g ∈ allHoods parts, coupledRates B g (gather 3 g X.y) (gather 1 g q) =
      .ok (forceValue B g (gather 3 g X.y) (gather 1 g q), flowValue B g (gather 3 g X.y) (gather 1 g q)) :=
    fun g hg => coupledRates_ok (coupledAd_iff.1 (h1 g hg))
  refine ⟨_, totalRates_ok (X := { X with p := q }) fun g hg => ⟨_, hk g hg⟩, fun I => ?_⟩
  rw [block_apply hvol hv hn h hN, ← List.sum_map_mul_left]
  congr 1
  apply List.map_congr_left
  intro g hg
  unfold hoodRates
  simp only
  rw [hk g hg, hvol, ← flow_form (allHoods_pos hv hg) (hn g hg) X.y q I]
  rfl

/-- **C235** That block is symmetric. -/
theorem C235_symmetric (B : Body) (X : State) (hvol : X.vol = B.solid.v) (S : Scratch) (parts : List Part)
    (hv : ∀ p ∈ parts, p.Valid) (hn : ∀ h ∈ allHoods parts, h.Nodup) (A : Nat → Finset Nat) (M : Sparse)
    (h : coupledTangent none .full B X S (parts.map Part.proc) (Sparse.zero A) = .ok M) (I J : Nat) :
    M.val (4 * I + 3) (4 * J + 3) = M.val (4 * J + 3) (4 * I + 3) := by
  rw [pressure_block hvol hv hn h, pressure_block hvol hv hn h]
  congr 1
  apply List.map_congr_left
  intro g _
  exact flowForm_symm _ _ _ _ _

theorem flowForm_nonpos {B : Body} (hP : B.fluid.Physical) (hv : ∀ g, 0 ≤ B.solid.v g) (y : Nat → ℝ) (h : List Nat) (q : Nat → ℝ) :
    flowForm B y h q q ≤ 0 := by
  unfold flowForm
  rw [neg_nonpos]
  apply List.sum_nonneg
  intro x hx
  obtain ⟨b, _, rfl⟩ := List.mem_map.1 hx
  rw [mul_assoc]
  exact mul_nonneg (mul_nonneg (conductance_nonneg hP b) (mul_nonneg (hv _) (hv _))) (mul_self_nonneg _)

/-- **C235** It is negative semidefinite: pressure differences are dissipated. -/
theorem C235_dissipates (B : Body) (hP : B.fluid.Physical) (hpos : ∀ g, 0 ≤ B.solid.v g) (X : State) (hvol : X.vol = B.solid.v)
    (S : Scratch) (parts : List Part)
    (hv : ∀ p ∈ parts, p.Valid) (hn : ∀ h ∈ allHoods parts, h.Nodup) (A : Nat → Finset Nat) (M : Sparse)
    (h : coupledTangent none .full B X S (parts.map Part.proc) (Sparse.zero A) = .ok M) (N : Nat)
    (hN : ∀ h ∈ allHoods parts, ∀ g ∈ h, g < N) (q : Nat → ℝ) :
    ∑ I ∈ Finset.range N, q I * ∑ J ∈ Finset.range N, M.val (4 * I + 3) (4 * J + 3) * q J ≤ 0 := by
  have e : ∀ I, q I * ∑ J ∈ Finset.range N, M.val (4 * I + 3) (4 * J + 3) * q J =
      ((allHoods parts).map fun h => flowForm B X.y h q (spike I) * q I).sum := by
    intro I
    rw [block_apply hvol hv hn h hN, List.sum_map_mul_right, mul_comm]
    congr 2
    apply List.map_congr_left
    intro g _
    exact flowForm_symm _ _ _ _ _
  simp only [e]
  rw [list_sum_comm]
  have : ∀ l : List (List Nat), (∀ g ∈ l, g ∈ allHoods parts) →
      (l.map fun g => ∑ I ∈ Finset.range N, flowForm B X.y g q (spike I) * q I).sum ≤ 0 := by
    intro l
    induction l with
    | nil => simp
    | cons g l ih =>
      intro hl
      rw [List.map_cons, List.sum_cons]
      have hg := hl g List.mem_cons_self
      rw [flowForm_sum B X.y (allHoods_pos hv hg) (hN g hg)]
      have := flowForm_nonpos hP hpos X.y g q
      have := ih fun g hg => hl g (List.mem_cons_of_mem _ hg)
      linarith
  exact this _ fun g hg => hg

/-- **C235** Its entries off the diagonal are not negative and its rows sum to zero, so that no entry of the diagonal is
positive: more pressure at one point never draws fluid from others. -/
theorem C235_signs (B : Body) (hP : B.fluid.Physical) (hpos : ∀ g, 0 ≤ B.solid.v g) (X : State) (hvol : X.vol = B.solid.v)
    (S : Scratch) (parts : List Part)
    (hv : ∀ p ∈ parts, p.Valid) (hn : ∀ h ∈ allHoods parts, h.Nodup) (A : Nat → Finset Nat) (M : Sparse)
    (h : coupledTangent none .full B X S (parts.map Part.proc) (Sparse.zero A) = .ok M) (N : Nat)
    (hN : ∀ h ∈ allHoods parts, ∀ g ∈ h, g < N) (I : Nat) :
    (∀ J, J ≠ I → 0 ≤ M.val (4 * I + 3) (4 * J + 3)) ∧ ∑ J ∈ Finset.range N, M.val (4 * I + 3) (4 * J + 3) = 0 ∧
      M.val (4 * I + 3) (4 * I + 3) ≤ 0 := by
  refine ⟨fun J hJ => ?_, ?_, ?_⟩
  · rw [pressure_block hvol hv hn h]
    apply List.sum_nonneg
    intro x hx
    obtain ⟨g, _, rfl⟩ := List.mem_map.1 hx
    unfold flowForm
    rw [← neg_one_mul, ← List.sum_map_mul_left]
    apply List.sum_nonneg
    intro x hx
    obtain ⟨b, _, rfl⟩ := List.mem_map.1 hx
    have hc := mul_nonneg (conductance_nonneg (C := B.solid.hood g (gather 3 g X.y)) hP b)
      (mul_nonneg (hpos (g.getD b.i 0)) (hpos (g.getD b.j 0)))
    have hs : (spike I (g.getD b.j 0) - spike I (g.getD b.i 0)) * (spike J (g.getD b.j 0) - spike J (g.getD b.i 0)) ≤ 0 := by
      unfold spike
      generalize g.getD b.j 0 = j
      generalize g.getD b.i 0 = i
      split_ifs <;> first | (exfalso; omega) | norm_num
    nlinarith [mul_nonneg hc (neg_nonneg.2 hs)]
  · have := block_apply hvol hv hn h hN (fun _ => 1) I
    simp only [mul_one] at this
    rw [this]
    apply List.sum_eq_zero
    intro x hx
    obtain ⟨g, _, rfl⟩ := List.mem_map.1 hx
    unfold flowForm
    simp
  · rw [pressure_block hvol hv hn h]
    have : ∀ l : List (List Nat), (l.map fun g => flowForm B X.y g (spike I) (spike I)).sum ≤ 0 := by
      intro l
      induction l with
      | nil => simp
      | cons g l ih =>
        rw [List.map_cons, List.sum_cons]
        have := flowForm_nonpos hP hpos X.y g (spike I)
        linarith
    exact this _

/-- **C235** No unknown, coordinate or pressure, changes the total of the forces in a direction (`c < 3`) or of the flows
(`c = 3`): every column of the tangent sums to zero over the forces in a direction and over the flows. -/
theorem C235_balance (B : Body) (X : State) (hvol : X.vol = B.solid.v) (S : Scratch) (parts : List Part)
    (hv : ∀ p ∈ parts, p.Valid) (hn : ∀ h ∈ allHoods parts, h.Nodup) (A : Nat → Finset Nat) (M : Sparse)
    (h : coupledTangent none .full B X S (parts.map Part.proc) (Sparse.zero A) = .ok M) (N : Nat)
    (hN : ∀ h ∈ allHoods parts, ∀ g ∈ h, g < N) (c : Nat) (hc : c < 4) (Q : Nat) :
    ∑ J ∈ Finset.range N, M.val (4 * J + c) Q = 0 := by
  obtain ⟨h1, h2⟩ := adTangent_ok hv hn (show adTangent .full (coupledAd B) X S _ _ = _ from h)
  simp only [h2, Sparse.zero, zero_add]
  rw [list_sum_comm]
  apply List.sum_eq_zero
  intro x hx
  obtain ⟨g, hg, rfl⟩ := List.mem_map.1 hx
  exact entry_balance hvol (allHoods_pos hv hg) (hn g hg) (hN g hg) (h1 g hg) hc Q

/-- **C235** A translation of the whole body changes neither forces nor flows. -/
theorem C235_translations (B : Body) (X : State) (S : Scratch) (parts : List Part)
    (hv : ∀ p ∈ parts, p.Valid) (hn : ∀ h ∈ allHoods parts, h.Nodup) (A : Nat → Finset Nat) (M : Sparse)
    (h : coupledTangent none .full B X S (parts.map Part.proc) (Sparse.zero A) = .ok M) (N : Nat)
    (hN : ∀ h ∈ allHoods parts, ∀ g ∈ h, g < N) (t : V3) (R : Nat) :
    ∑ J ∈ Finset.range N, ∑ b : Fin 3, M.val R (4 * J + b) * t b = 0 := by
  obtain ⟨h1, h2⟩ := adTangent_ok hv hn (show adTangent .full (coupledAd B) X S _ _ = _ from h)
  have e : ∀ J : Nat, ∑ b : Fin 3, M.val R (4 * J + b) * t b =
      ((allHoods parts).map fun g => ∑ b : Fin 3, adEntry (coupledAd B) X g R (4 * J + b) * t b).sum := by
    intro J
    rw [← list_sum_comm]
    apply Finset.sum_congr rfl
    intro b _
    rw [h2, List.sum_map_mul_right]
    simp only [Sparse.zero, zero_add]
  simp only [e]
  rw [list_sum_comm]
  apply List.sum_eq_zero
  intro x hx
  obtain ⟨g, hg, rfl⟩ := List.mem_map.1 hx
  exact entry_translation (allHoods_pos hv hg) (hn g hg) (hN g hg) (h1 g hg) t R

theorem wet_physical : wet.fluid.Physical := by
  constructor <;> norm_num [wet]

/-- All of this holds for the stretched bar filled with a fluid. -/
example : ∃ A M, allocate 4 (pair.map Part.proc) = .ok A ∧
    coupledTangent none .full wet (pulled 3) fresh (pair.map Part.proc) (Sparse.zero A) = .ok M ∧
    M.val 3 7 = M.val 7 3 ∧ 0 ≤ M.val 3 7 ∧ M.val 3 3 + M.val 3 7 = 0 ∧ M.val 0 7 + M.val 4 7 = 0 ∧ M.val 3 0 + M.val 3 4 = 0 := by
  obtain ⟨A, M, hA, hM⟩ := (C233_defined wet (pulled 3) fresh pair pair_valid pair_nodup).2
    ⟨pair_joined, wet_sound (by norm_num)⟩
  have hvol : (pulled 3).vol = wet.solid.v := rfl
  have hs := C235_signs wet wet_physical (fun _ => by norm_num [wet, bar]) _ hvol _ _ pair_valid pair_nodup A M hM 2 pair_below 0
  have hb := C235_balance wet _ hvol _ _ pair_valid pair_nodup A M hM 2 pair_below 0 (by omega) 7
  have ht := C235_translations wet _ _ _ pair_valid pair_nodup A M hM 2 pair_below ![1, 0, 0] 3
  refine ⟨A, M, hA, hM, C235_symmetric wet _ hvol _ _ pair_valid pair_nodup A M hM 0 1, hs.1 1 (by omega), ?_, ?_, ?_⟩
  · simpa [Finset.sum_range_succ] using hs.2.1
  · simpa [Finset.sum_range_succ] using hb
  · simpa [Finset.sum_range_succ, Fin.sum_univ_three] using ht

end Verif.Porous
