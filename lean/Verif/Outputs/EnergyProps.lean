import Verif.Outputs.MomentumProps
import Mathlib.Tactic.Positivity

/-! C55: energies. -/

noncomputable section

namespace Verif.Outputs

open Verif Verif.Neigh Verif.Mech
open scoped Classical Matrix

theorem half_eq : (0.5 : ℝ) = 1 / 2 := by norm_num

/-- C55: the kinetic energy of a point is half its mass times its velocity squared, and the global value is
the sum over all points of all blocks on all processors. -/
theorem C55_kinetic_sum {run : List (List State)} (h : ∀ b ∈ run, b ≠ []) :
    globalKinetic run = .ok (sumPoints State.kinetic run) ∧
      ∀ s : State, ∀ i, s.kinetic i = 1 / 2 * (s.density * s.vol i) * (s.v i ⬝ᵥ s.v i) := by
  refine ⟨sumBlocks_eq State.kinetic h, fun s i => ?_⟩
  rw [State.kinetic, dotProduct, Fin.sum_univ_three, half_eq]
  ring

example : globalKinetic [[mover 1, mover 2], [mover 3]] = .ok 7 := by
  rw [(C55_kinetic_sum (by simp)).1]
  simp [sumPoints, sumBlock, mover, State.kinetic, List.range_succ]
  norm_num

/-- Densities and volumes are positive. -/
def Massive (run : List (List State)) : Prop := ∀ b ∈ run, ∀ s ∈ b, 0 < s.density ∧ ∀ i < s.owned, 0 < s.vol i

theorem kinetic_nonneg {run : List (List State)} (hm : Massive run) :
    ∀ b ∈ run, ∀ s ∈ b, ∀ i < s.owned, 0 ≤ s.kinetic i := by
  intro b hb s hs i hi
  have h1 := (hm b hb s hs).1
  have h2 := (hm b hb s hs).2 i hi
  have h3 := mul_self_nonneg (s.v i 0)
  have h4 := mul_self_nonneg (s.v i 1)
  have h5 := mul_self_nonneg (s.v i 2)
  rw [State.kinetic]
  have h6 : 0 ≤ s.v i 0 * s.v i 0 + s.v i 1 * s.v i 1 + s.v i 2 * s.v i 2 := by linarith
  positivity

/-- C55: the kinetic energy is non-negative, and zero exactly if all points are at rest. -/
theorem C55_kinetic_nonneg {run : List (List State)} (h : ∀ b ∈ run, b ≠ []) (hm : Massive run) :
    ∃ E, globalKinetic run = .ok E ∧ 0 ≤ E ∧ (E = 0 ↔ ∀ b ∈ run, ∀ s ∈ b, ∀ i < s.owned, s.v i = 0) := by
  refine ⟨_, (C55_kinetic_sum h).1, sumPoints_nonneg (kinetic_nonneg hm), ?_⟩
  rw [sumPoints_eq_zero (kinetic_nonneg hm)]
  refine forall₂_congr fun b hb => forall₂_congr fun s hs => forall₂_congr fun i hi => ?_
  have h1 := (hm b hb s hs).1
  have h2 := (hm b hb s hs).2 i hi
  rw [State.kinetic]
  constructor
  · intro e
    have h3 : s.v i 0 * s.v i 0 + s.v i 1 * s.v i 1 + s.v i 2 * s.v i 2 = 0 := by
      rcases mul_eq_zero.mp e with e | e
      · exfalso
        have : 0 < 0.5 * s.vol i * s.density := by positivity
        linarith
      · exact e
    refine len_eq_zero.mp ?_
    rw [len, h3, Real.sqrt_zero]
  · intro e
    simp [e]

example : ∃ E, globalKinetic [[mover 1]] = .ok E ∧ 0 ≤ E ∧
    (E = 0 ↔ ∀ b ∈ [[mover 1]], ∀ s ∈ b, ∀ i < s.owned, s.v i = 0) :=
  C55_kinetic_nonneg (by simp) (by intro b hb s hs; simp at hb; subst hb; simp at hs; subst hs; simp [mover])

/-! ### Strain energy -/

/-- C55: the global strain energy is the sum of the strain energies of the points. -/
theorem C55_strain_sum {run : List (List State)} {e : State → List ℝ} (h : ∀ b ∈ run, b ≠ [])
    (he : ∀ b ∈ run, ∀ s ∈ b, s.strain = .ok (e s)) :
    globalStrain run = .ok (run.map fun b => (b.map fun s => (e s).sum).sum).sum :=
  globalStrain_eq h he

/-- A point at rest without neighbors has no strain energy. -/
example : globalStrain [[mover 1]] = .ok 0 := by
  have h : (mover 1).strain = .ok [0] := by
    rw [strain_eq (nbs := [[]]) ⟨rfl, rfl, by simp [mover]⟩]
    simp [mover, strainDensityAt, State.We]
  rw [C55_strain_sum (e := fun _ => [0]) (by simp) (by simpa using h)]
  simp

/-- C55: in a body that is moved rigidly, where the dilatation vanishes (C20), all points have strain energy
zero, and so has the body. -/
theorem C55_strain_rigid {run : List (List State)} (h : ∀ b ∈ run, b ≠ []) {nbs : State → List (List Nat)}
    (hn : ∀ b ∈ run, ∀ s ∈ b, s.HasNeighbors (nbs s))
    (hr : ∀ b ∈ run, ∀ s ∈ b, (∃ (Q : Matrix (Fin 3) (Fin 3) ℝ) (c : V3), Qᵀ * Q = 1 ∧ s.y = moved Q c s.x) ∧
      ∀ i < s.owned, s.theta i = 0) :
    (∀ b ∈ run, ∀ s ∈ b, s.strain = .ok (List.replicate s.owned 0)) ∧ globalStrain run = .ok 0 := by
  have key : ∀ b ∈ run, ∀ s ∈ b, s.strain = .ok (List.replicate s.owned 0) := by
    intro b hb s hs
    obtain ⟨⟨Q, c, hQ, hy⟩, hth⟩ := hr b hb s hs
    have hn' := hn b hb s hs
    rw [strain_eq hn', hn'.1]
    congr 1
    refine List.eq_replicate_iff.mpr ⟨by simp, fun v hv => ?_⟩
    obtain ⟨x, hx, rfl⟩ := List.mem_map.mp hv
    have hi : x.2 < s.owned := by
      rw [hn'.1]
      exact (List.getElem?_eq_some_iff.mp (List.mem_zipIdx_iff_getElem?.mp hx)).1
    rw [strainDensityAt, hth _ hi, We_zero]
    · ring
    · intro j _
      rw [hth _ hi, hy, moved_sub, len_rot Q hQ]
      ring
  refine ⟨key, ?_⟩
  rw [C55_strain_sum h key]
  congr 1
  have z1 : ∀ b : List State, (b.map fun s => (List.replicate s.owned (0 : ℝ)).sum).sum = 0 := by
    intro b
    induction b with
    | nil => rfl
    | cons s b ih => rw [List.map_cons, List.sum_cons, ih]; simp
  have z2 : ∀ r : List (List State), (r.map fun b => (b.map fun s => (List.replicate s.owned (0 : ℝ)).sum).sum).sum
      = 0 := by
    intro r
    induction r with
    | nil => rfl
    | cons b r ih => rw [List.map_cons, List.sum_cons, ih, z1, add_zero]
  exact z2 run

/-- Two points one apart, moved without rotation. -/
def shifted : State :=
  { owned := 2, list := [1, 1, 1, 0], density := 1, bulk := 1, shear := 1, vol := fun _ => 1,
    x := fun i => ![i, 0, 0], y := moved 1 ![5, 0, 0] fun i => ![i, 0, 0], v := fun _ => 0, w := fun _ => 1,
    theta := fun _ => 0 }

example : globalStrain [[shifted]] = .ok 0 :=
  (C55_strain_rigid (nbs := fun _ => [[1], [0]]) (by simp)
    (by intro b hb s hs; simp at hb; subst hb; simp at hs; subst hs; exact ⟨rfl, rfl, by simp [shifted]⟩)
    (by
      intro b hb s hs
      simp at hb
      subst hb
      simp at hs
      subst hs
      exact ⟨⟨1, ![5, 0, 0], by simp, rfl⟩, by simp [shifted]⟩)).2

/-- C55: in a body expanded or contracted uniformly the strain energies of the points are `K θ² / 2` times
the volume, hence non-negative.  Missing: other deformations, for which the energy can be negative, see
`C55_strain_negative`. -/
theorem C55_strain_expansion_partial {s : State} {nbs : List (List Nat)} (hn : s.HasNeighbors nbs) {f : ℝ}
    (hf : 0 ≤ f) {c : V3} (hy : ∀ i, s.y i = f • s.x i + c) (hth : ∀ i < s.owned, s.theta i = 3 * (f - 1))
    (hK : 0 ≤ s.bulk) (hv : ∀ i < s.owned, 0 ≤ s.vol i) :
    ∃ e, s.strain = .ok e ∧ e.length = s.owned ∧ ∀ i, ∀ E, e[i]? = some E →
      E = s.vol i * (s.bulk * s.theta i ^ 2 / 2) ∧ 0 ≤ E := by
  refine ⟨_, strain_eq hn, by simp [hn.1], ?_⟩
  intro i E hE
  rw [List.getElem?_map, Option.map_eq_some_iff] at hE
  obtain ⟨x, hx, rfl⟩ := hE
  have hxi : x.2 = i := by
    rw [List.getElem?_zipIdx, Option.map_eq_some_iff] at hx
    obtain ⟨a, _, rfl⟩ := hx
    simp
  have hi : i < s.owned := by
    rw [hn.1]
    have := (List.getElem?_eq_some_iff.mp hx).1
    simpa using this
  have hW : s.We x.2 x.1 = 0 := by
    refine We_zero fun j _ => ?_
    have e1 : s.y j - s.y x.2 = f • (s.x j - s.x x.2) := by
      rw [hy, hy, smul_sub]
      abel
    have e2 : len (f • (s.x j - s.x x.2)) = f * len (s.x j - s.x x.2) := by
      unfold len
      have : (f • (s.x j - s.x x.2)) 0 * (f • (s.x j - s.x x.2)) 0 + (f • (s.x j - s.x x.2)) 1 * (f • (s.x j - s.x x.2)) 1 +
          (f • (s.x j - s.x x.2)) 2 * (f • (s.x j - s.x x.2)) 2 = (f * f) * ((s.x j - s.x x.2) 0 * (s.x j - s.x x.2) 0 +
          (s.x j - s.x x.2) 1 * (s.x j - s.x x.2) 1 + (s.x j - s.x x.2) 2 * (s.x j - s.x x.2) 2) := by
        simp only [Pi.smul_apply, smul_eq_mul]
        ring
      rw [this, Real.sqrt_mul (mul_self_nonneg f), Real.sqrt_mul_self hf]
    rw [e1, e2, hxi, hth i hi]
    ring
  have hE : s.vol x.2 * strainDensityAt s x.2 x.1 = s.vol i * (s.bulk * s.theta i ^ 2 / 2) := by
    rw [strainDensityAt, hW, hxi, half_eq]
    ring
  refine ⟨hE, ?_⟩
  rw [hE]
  have := hv i hi
  positivity

/-- The two points pulled apart to twice their distance. -/
example : ∃ e, State.strain { shifted with y := fun i => ![2 * i, 0, 0], theta := fun _ => 3 } = .ok e ∧
    e.length = 2 ∧ ∀ (i : Nat) (E : ℝ), e[i]? = some E → E = 1 * (1 * 3 ^ 2 / 2) ∧ 0 ≤ E :=
  C55_strain_expansion_partial (s := { shifted with y := fun i => ![2 * i, 0, 0], theta := fun _ => 3 })
    (nbs := [[1], [0]]) (f := 2) (c := 0) ⟨rfl, rfl, by simp [shifted]⟩ (by norm_num)
    (by intro i; funext c; fin_cases c <;> simp [shifted]) (by intro i _; norm_num) (by simp [shifted])
    (by simp [shifted])

/-- A point with neighbors at distances 1 and 2, of which the first has come closer and the second moved
away. -/
def sheared : State :=
  { owned := 1, list := [2, 1, 2], density := 1, bulk := 1, shear := 1, vol := fun _ => 1,
    x := fun i => if i = 1 then ![1, 0, 0] else if i = 2 then ![0, 2, 0] else 0,
    y := fun i => if i = 1 then ![4 / 5, 0, 0] else if i = 2 then ![0, 21 / 10, 0] else 0,
    v := fun _ => 0, w := fun _ => 5, theta := fun _ => 0 }

/-- The same data as the material sees them, with influence function one and without damage. -/
def shearedConfig : Config :=
  { x := sheared.x, y := sheared.y, v := sheared.vol, m := sheared.w, damage := fun _ => 0, omega := fun _ _ => 1,
    horizon := 3, thermal := none }

theorem len_y (u : ℝ) (hu : 0 ≤ u) : len ![0, u, 0] = u := (len_axis u hu).2

/-- C55 is false for the strain energy: it can be negative, with weighted volume and dilatation as the
material computes them. -/
theorem C55_strain_negative : ∃ (s : State) (C : Config), C.x = s.x ∧ C.y = s.y ∧ C.v = s.vol ∧ C.m = s.w ∧
    s.owned = 1 ∧ s.w 0 = weightedVolumeAt C 0 [1, 2] ∧ dilatation C s.owned s.list (fun _ => 0) = .ok s.theta ∧
    0 < s.bulk ∧ 0 < s.shear ∧ ∃ E, globalStrain [[s]] = .ok E ∧ E < 0 := by
  have x1 : sheared.x 1 - sheared.x 0 = ![1, 0, 0] := by simp [sheared]
  have x2 : sheared.x 2 - sheared.x 0 = ![0, 2, 0] := by simp [sheared]
  have y1 : sheared.y 1 - sheared.y 0 = ![4 / 5, 0, 0] := by simp [sheared]
  have y2 : sheared.y 2 - sheared.y 0 = ![0, 21 / 10, 0] := by simp [sheared]
  have lx1 : len (sheared.x 1 - sheared.x 0) = 1 := by rw [x1, (len_axis 1 (by norm_num)).1]
  have lx2 : len (sheared.x 2 - sheared.x 0) = 2 := by rw [x2, len_y 2 (by norm_num)]
  have ly1 : len (sheared.y 1 - sheared.y 0) = 4 / 5 := by rw [y1, (len_axis (4 / 5) (by norm_num)).1]
  have ly2 : len (sheared.y 2 - sheared.y 0) = 21 / 10 := by rw [y2, len_y (21 / 10) (by norm_num)]
  refine ⟨sheared, shearedConfig, rfl, rfl, rfl, rfl, rfl, ?_, ?_, by simp [sheared], by simp [sheared], -3 / 20, ?_,
    by norm_num⟩
  · show (5 : ℝ) = _
    simp only [weightedVolumeAt, List.foldl_cons, List.foldl_nil, shearedConfig]
    rw [x1, x2]
    simp [sheared]
    norm_num
  · have hv : visitedBonds sheared.owned sheared.list = .ok [⟨0, 1, 0⟩, ⟨0, 2, 1⟩] := rfl
    have t1 : dilatationTerm shearedConfig ⟨0, 1, 0⟩ = .ok (-3 / 25) := by
      rw [dilatationTerm, if_neg (by simp [shearedConfig, sheared])]
      simp only [Config.om, Config.ext, Config.dY, Config.yd, Config.zeta, shearedConfig]
      rw [lx1, ly1]
      norm_num [sheared]
    have t2 : dilatationTerm shearedConfig ⟨0, 2, 1⟩ = .ok (3 / 25) := by
      rw [dilatationTerm, if_neg (by simp [shearedConfig, sheared])]
      simp only [Config.om, Config.ext, Config.dY, Config.yd, Config.zeta, shearedConfig]
      rw [lx2, ly2]
      norm_num [sheared]
    simp only [dilatation, hv, dilatationLoop, t1, t2]
    congr 1
    funext p
    by_cases hp : p = 0
    · subst hp
      simp [sheared]
      norm_num
    · simp [sheared, Function.update_of_ne hp]
  · have hs : sheared.strain = .ok [-3 / 20] := by
      rw [strain_eq (nbs := [[1, 2]]) ⟨rfl, rfl, by simp [sheared]⟩]
      simp only [List.zipIdx_cons, List.zipIdx_nil, List.map_cons, List.map_nil, strainDensityAt, We_eq]
      rw [lx1, lx2, ly1, ly2]
      norm_num [sheared]
    rw [C55_strain_sum (e := fun _ => [-3 / 20]) (by simp) (by simpa using hs)]
    simp

end Verif.Outputs
