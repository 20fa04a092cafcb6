import Verif.Mech.FlowSpec
import Verif.Mech.Plastic
import Verif.Mech.Defined
import Verif.Mech.HistoryProps
import Verif.Energy.Lemmas

/-! # Property theorems: the plastic flow of undamaged material keeps the volume (C224) -/

noncomputable section

namespace Verif.Mech

open Verif Verif.Neigh Verif.Energy

theorem plasticVolume_eq {x : Nat → V3} {v : Nat → ℝ} {nbs : List (List Nat)} {edp : Nat → ℝ} {p : Nat} {ns : List Nat} (hp : nbs[p]? = some ns)
    {C : Config} (hx : C.x = x) (hv : C.v = v) :
    plasticVolume x v nbs edp p ns = ((bondsAt nbs p).map fun b => edp b.b * C.zeta b * C.v b.j).sum := by
  unfold bondsAt
  rw [filter_bondsOf nbs hp, List.map_map, plasticVolume]
  congr 1
  apply List.map_congr_left
  rintro ⟨j, t⟩ _
  simp only [Function.comp]
  rw [hv]
  unfold Config.zeta
  rw [hx]

/-- One evaluation of the material. -/
theorem plasticVolume_step {x : Nat → V3} {v : Nat → ℝ} {nbs : List (List Nat)} {p : Nat} {ns : List Nat} (hp : nbs[p]? = some ns)
    {C : Config} (hC : Sane x v nbs p ns C) {P : PlasticConst} {th edpN lambdaN theta : Nat → ℝ} {s s' : PlasticState}
    (h : plasticMaterial C P nbs.length (encode nbs) th edpN lambdaN s = .ok (theta, s'))
    (h0 : plasticVolume x v nbs edpN p ns = 0) : plasticVolume x v nbs s'.edp p ns = 0 := by
  have hpl : p < nbs.length := (List.getElem?_eq_some_iff.1 hp).1
  have hth : theta p = ((bondsAt nbs p).map fun b => 3 * kap C b * C.zeta b * (C.dY b - C.zeta b) / C.m p).sum := by
    unfold plasticMaterial at h
    split at h
    · next th' hd =>
      split at h
      · cases h
        exact dilatation_eq hd hpl
      · cases h
      · cases h
    · cases h
    · cases h
  obtain ⟨yv, _, hall⟩ := plastic_spec h
  obtain ⟨fl, hfl, _, hb⟩ := hall p hpl
  have hm := weighted_eq hC.weighted hpl
  have bond : ∀ b ∈ bondsAt nbs p, b.i = p ∧ C.damage b.b = 0 ∧ C.om b = 1 := by
    intro b hb
    unfold bondsAt at hb
    rw [filter_bondsOf nbs hp] at hb
    obtain ⟨⟨j, t⟩, hjt, rfl⟩ := List.mem_map.1 hb
    obtain ⟨_, hl, hj⟩ := List.mem_zipIdx hjt
    simp only [Nat.zero_add, Nat.sub_zero] at hl hj
    refine ⟨rfl, hC.damage t hl, ?_⟩
    have := hC.omega j (by rw [hj]; exact List.getElem_mem _)
    unfold Config.om Config.zeta
    rw [hC.pos]
    exact this
  rw [plasticVolume_eq hp hC.pos hC.vol] at h0 ⊢
  have hm0 : C.m p ≠ 0 := by
    intro h0
    unfold plasticFlow at hfl
    rw [if_pos h0] at hfl
    cases hfl
  have key : ((bondsAt nbs p).map fun b => (edState C theta b - edpN b.b) * C.zeta b * C.v b.j).sum = 0 := by
    have e : ∀ b ∈ bondsAt nbs p, (edState C theta b - edpN b.b) * C.zeta b * C.v b.j =
        C.m p / 3 * (3 * kap C b * C.zeta b * (C.dY b - C.zeta b) / C.m p) +
          (-(theta p / 3) * (C.om b * C.zeta b ^ 2 * C.v b.j) + -1 * (edpN b.b * C.zeta b * C.v b.j)) := by
      intro b hbm
      obtain ⟨b1, b2, b3⟩ := bond b hbm
      unfold edState kap
      rw [b1, b2, b3]
      field_simp
      ring
    rw [List.map_congr_left e, List.sum_map_add, List.sum_map_add, List.sum_map_mul_left, List.sum_map_mul_left, List.sum_map_mul_left,
      ← hth, ← hm, h0]
    ring
  have upd : ∃ k : ℝ, ∀ b ∈ bondsAt nbs p, s'.edp b.b = edpN b.b + k * (edState C theta b - edpN b.b) := by
    cases hd : fl.deltaLambda with
    | none =>
      refine ⟨0, fun b hbm => ?_⟩
      obtain ⟨td, htd⟩ := hb b (List.mem_of_mem_filter hbm) (bond b hbm).1
      unfold plasticUpdate at htd
      rw [hd] at htd
      simp only at htd
      have := Outcome.ok.inj htd
      rw [Prod.mk.injEq] at this
      rw [← this.2]
      ring
    | some dl =>
      refine ⟨Real.sqrt (2 * yv) * (15 * P.mu / C.m p) / fl.tdNorm * dl, fun b hbm => ?_⟩
      obtain ⟨td, htd⟩ := hb b (List.mem_of_mem_filter hbm) (bond b hbm).1
      unfold plasticUpdate at htd
      rw [hd, (bond b hbm).1] at htd
      simp only at htd
      split at htd
      · cases htd
      have := Outcome.ok.inj htd
      rw [Prod.mk.injEq] at this
      rw [← this.2]
      ring
  obtain ⟨k, hk⟩ := upd
  have e : ∀ b ∈ bondsAt nbs p, s'.edp b.b * C.zeta b * C.v b.j =
      edpN b.b * C.zeta b * C.v b.j + k * ((edState C theta b - edpN b.b) * C.zeta b * C.v b.j) := by
    intro b hbm
    rw [hk b hbm]
    ring
  rw [List.map_congr_left e, List.sum_map_add, List.sum_map_mul_left, h0, key]
  ring

/-! ### C224 -/

/-- **C224** Plastic flow keeps the volume: if a point has no damaged bonds and the influence function is one, then over a
history of any length of elastic and plastic steps the plastic extensions of its bonds never add up to a change of volume, if
they did not at the start. -/
theorem C224_isochoric (P : PlasticConst) (nbs : List (List Nat)) (x : Nat → V3) (v : Nat → ℝ) (p : Nat) (ns : List Nat)
    (hp : nbs[p]? = some ns) (s0 s : PlasticState) (hist : List (Config × (Nat → ℝ) × PlasticState)) (h : PlasticRun P nbs s0 s hist)
    (hok : ∀ e ∈ hist, Sane x v nbs p ns e.1) (h0 : plasticVolume x v nbs s0.edp p ns = 0) :
    plasticVolume x v nbs s.edp p ns = 0 ∧ ∀ e ∈ hist, plasticVolume x v nbs e.2.2.edp p ns = 0 := by
  induction h with
  | start => exact ⟨h0, by simp⟩
  | @step s hist i theta s' hrun hstep ih =>
    obtain ⟨h1, h2⟩ := ih fun e he => hok e (List.mem_cons_of_mem _ he)
    have := plasticVolume_step hp (hok _ List.mem_cons_self) hstep h1
    refine ⟨this, fun e he => ?_⟩
    rcases List.mem_cons.1 he with rfl | he
    · exact this
    · exact h2 e he

/-- The virgin state has no plastic volume. -/
theorem C224_virgin (nbs : List (List Nat)) (x : Nat → V3) (v : Nat → ℝ) (p : Nat) (ns : List Nat) :
    plasticVolume x v nbs (fun _ => 0) p ns = 0 := by
  unfold plasticVolume
  simp

/-! ### Example -/

/-- Three points on a line, the first in the middle and bonded to the others, the second one moved away. -/
def pulledLine : Config where
  x := fun k => if k = 1 then ![1, 0, 0] else if k = 2 then ![-1, 0, 0] else 0
  y := fun k => if k = 1 then ![2, 0, 0] else if k = 2 then ![-1, 0, 0] else 0
  v := fun _ => 1
  m := fun k => if k = 0 then 2 else 1
  damage := fun _ => 0
  omega := fun _ _ => 1
  horizon := 2
  thermal := none

def lineNbs : List (List Nat) := [[1, 2], [0], [0]]

theorem line_weighted : Weighted pulledLine lineNbs := by
  obtain ⟨m', h1, h2, h3⟩ := C22_stored pulledLine lineNbs pulledLine.m
  refine ⟨pulledLine.m, ?_⟩
  rw [h1]
  congr 1
  funext p
  match p with
  | 0 => rw [h2 0 _ rfl]; simp [weightedVolumeAt, pulledLine]; try norm_num
  | 1 => rw [h2 1 _ rfl]; simp [weightedVolumeAt, pulledLine]; try norm_num
  | 2 => rw [h2 2 _ rfl]; simp [weightedVolumeAt, pulledLine]; try norm_num
  | p + 3 => exact h3 _ (by simp [lineNbs])

theorem line_proper : Proper pulledLine lineNbs := by
  intro p j ⟨ns, hp, hj⟩
  have h0 : ∀ a b : Nat, (a = 0 ∧ (b = 1 ∨ b = 2)) ∨ (b = 0 ∧ (a = 1 ∨ a = 2)) →
      pulledLine.m a ≠ 0 ∧ pulledLine.y b ≠ pulledLine.y a ∧ pulledLine.x b ≠ pulledLine.x a := by
    rintro a b (⟨rfl, rfl | rfl⟩ | ⟨rfl, rfl | rfl⟩) <;> refine ⟨by norm_num [pulledLine], fun e => ?_, fun e => ?_⟩ <;>
      · have := congrFun e 0
        norm_num [pulledLine] at this
  apply h0
  match p, hp with
  | 0, hp => cases hp; simp at hj; exact .inl ⟨rfl, hj⟩
  | 1, hp => cases hp; simp at hj; exact .inr ⟨hj, .inl rfl⟩
  | 2, hp => cases hp; simp at hj; exact .inr ⟨hj, .inr rfl⟩
  | p + 3, hp => cases hp

example : ∃ s hist, PlasticRun ⟨1, 1, 1, none⟩ lineNbs ⟨0, 0, 0⟩ s hist ∧ hist.length = 1 ∧
    (∀ e ∈ hist, Sane pulledLine.x pulledLine.v lineNbs 0 [1, 2] e.1) ∧
    plasticVolume pulledLine.x pulledLine.v lineNbs s.edp 0 [1, 2] = 0 := by
  obtain ⟨theta, s', h⟩ := plastic_defined (C := pulledLine) (P := ⟨1, 1, 1, none⟩) line_proper
    (by intro p _; simp only [pulledLine]; split <;> norm_num) (by norm_num [pulledLine]) (by norm_num)
    (by norm_num) rfl (0 : Nat → ℝ) 0 0 ⟨0, 0, 0⟩
  have hrun : PlasticRun ⟨1, 1, 1, none⟩ lineNbs ⟨0, 0, 0⟩ s' [(pulledLine, theta, s')] :=
    PlasticRun.step (s := ⟨0, 0, 0⟩) (hist := []) ⟨pulledLine, 0, ⟨0, 0, 0⟩⟩ PlasticRun.start h
  have hs : ∀ e ∈ [(pulledLine, theta, s')], Sane pulledLine.x pulledLine.v lineNbs 0 [1, 2] e.1 := by
    intro e he
    rw [List.mem_singleton] at he
    subst he
    exact ⟨rfl, rfl, line_weighted, fun _ _ => rfl, fun _ _ => rfl⟩
  have h0 : plasticVolume pulledLine.x pulledLine.v lineNbs (⟨0, 0, 0⟩ : PlasticState).edp 0 [1, 2] = 0 :=
    C224_virgin lineNbs pulledLine.x pulledLine.v 0 [1, 2]
  have := C224_isochoric _ lineNbs pulledLine.x pulledLine.v 0 [1, 2] rfl _ _ _ hrun hs h0
  exact ⟨s', _, hrun, rfl, hs, this.1⟩

end Verif.Mech
