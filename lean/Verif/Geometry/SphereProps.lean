import Verif.Geometry.SphereLemmas

/-! C119: triangles and spheres. -/

noncomputable section

namespace Verif.Geometry

open Verif Verif.Mech

theorem triangleSphere_cases {a b c center : V3} {radius : ℝ} {P : SphereIntersection → Prop}
    (h0 : (∀ i, radius * radius ≤ dot (![a, b, c] i - center) (![a, b, c] i - center)) →
      P (separationTest (radius * radius) (a - center) (b - center) (c - center)))
    (h3 : (∀ i, dot (![a, b, c] i - center) (![a, b, c] i - center) < radius * radius) → P .inside)
    (h1 : (∃ i, dot (![a, b, c] i - center) (![a, b, c] i - center) < radius * radius) →
      (∃ i, radius * radius ≤ dot (![a, b, c] i - center) (![a, b, c] i - center)) → P .intersects) :
    P (triangleSphere a b c center radius) := by
  unfold triangleSphere
  have hmem : ∀ p ∈ [a - center, b - center, c - center], ∃ i, p = ![a, b, c] i - center := by
    intro p hp
    simp only [List.mem_cons, List.not_mem_nil, or_false] at hp
    rcases hp with rfl | rfl | rfl
    · exact ⟨0, rfl⟩
    · exact ⟨1, rfl⟩
    · exact ⟨2, rfl⟩
  have hmem' : ∀ i, ![a, b, c] i - center ∈ [a - center, b - center, c - center] := by
    intro i
    fin_cases i
    · exact List.mem_cons_self
    · exact List.mem_cons_of_mem _ List.mem_cons_self
    · exact List.mem_cons_of_mem _ (List.mem_cons_of_mem _ List.mem_cons_self)
  split
  · next h => exact h0 fun i => numWithin_zero h _ (hmem' i)
  · next h => exact h3 fun i => numWithin_all h _ (hmem' i)
  · next h' h'' =>
    obtain ⟨⟨p, hp, hp'⟩, q, hq, hq'⟩ := numWithin_some (rr := radius * radius)
      (ps := [a - center, b - center, c - center]) h' h''
    obtain ⟨i, rfl⟩ := hmem p hp
    obtain ⟨j, rfl⟩ := hmem q hq
    exact h1 ⟨i, hp'⟩ ⟨j, hq'⟩

theorem vec3_sub (a b c center : V3) :
    (fun i => (![a, b, c] : Fin 3 → V3) i - center) = ![a - center, b - center, c - center] := by
  funext i; fin_cases i <;> rfl

/-- **C119** A triangle is reported to be inside the sphere exactly if every point of it is. -/
theorem C119_inside {a b c center : V3} {radius : ℝ} (hr : 0 ≤ radius) :
    triangleSphere a b c center radius = .inside ↔
      ∀ p, Hull ![a, b, c] p → distance p center < radius := by
  constructor
  · refine triangleSphere_cases (P := fun s => s = .inside → _) ?_ ?_ ?_
    · intro _ h
      rcases separation_cases (radius * radius) (a - center) (b - center) (c - center) with h' | h' <;>
        rw [h'] at h <;> exact absurd h (by decide)
    · intro h _ p hp
      rw [distance_lt hr]
      exact hull_ball (hull_sub center hp) h
    · intro _ _ h; exact absurd h (by decide)
  · intro hall
    have hn : ∀ i, dot (![a, b, c] i - center) (![a, b, c] i - center) < radius * radius := fun i =>
      (distance_lt hr).mp (hall _ (hull_node _ i))
    refine triangleSphere_cases (P := fun s => s = .inside) ?_ ?_ ?_
    · intro h; exact absurd (h 0) (not_le.mpr (hn 0))
    · intro _; rfl
    · rintro _ ⟨i, hi⟩; exact absurd hi (not_le.mpr (hn i))

/-- **C119** A triangle reported to be outside the sphere has no point in it. -/
theorem C119_outside {a b c center : V3} {radius : ℝ} (hr : 0 ≤ radius)
    (h : triangleSphere a b c center radius = .outside) :
    ∀ p, Hull ![a, b, c] p → radius ≤ distance p center := by
  revert h
  refine triangleSphere_cases (P := fun s => s = .outside → _) ?_ ?_ ?_
  · intro hn h p hp
    rw [le_distance hr]
    have hp' := hull_sub center hp
    rw [vec3_sub] at hp'
    exact separation_sound (hn 0) (hn 1) (hn 2) h hp'
  · intro _ h; exact absurd h (by decide)
  · intro _ _ h; exact absurd h (by decide)

/-- **C119** A triangle whose nodes are not on a line, reported to intersect the sphere, has a point at most the radius
away from the center and one at least that far away. -/
theorem C119_intersects_partial {a b c center : V3} {radius : ℝ} (hr : 0 ≤ radius) (hT : Proper a b c)
    (h : triangleSphere a b c center radius = .intersects) :
    (∃ p, Hull ![a, b, c] p ∧ distance p center ≤ radius) ∧
      ∃ p, Hull ![a, b, c] p ∧ radius ≤ distance p center := by
  revert h
  refine triangleSphere_cases (P := fun s => s = .intersects → _) ?_ ?_ ?_
  · intro hn h
    refine ⟨?_, a, hull_node _ 0, (le_distance hr).mpr (hn 0)⟩
    by_contra hc
    push Not at hc
    have hcr := cross_ne_zero hT
    have : separationTest (radius * radius) (a - center) (b - center) (c - center) = .outside := by
      refine separation_complete ?_ ?_
      · rw [sub_sub_sub_cancel_right, sub_sub_sub_cancel_right]; exact hcr
      · intro p hp
        have hp' : Hull ![a, b, c] (p + center) := by
          refine hull_add center ?_
          rw [vec3_sub]; exact hp
        have := (lt_distance hr).mp (hc _ hp')
        rwa [add_sub_cancel_right] at this
    rw [this] at h
    exact absurd h (by decide)
  · intro _ h; exact absurd h (by decide)
  · rintro ⟨i, hi⟩ ⟨j, hj⟩ _
    exact ⟨⟨_, hull_node _ i, ((distance_lt hr).mpr hi).le⟩, _, hull_node _ j, (le_distance hr).mpr hj⟩

/-- **C119** So a triangle all of whose points are farther away than the radius is reported to be
outside. -/
theorem C119_far {a b c center : V3} {radius : ℝ} (hr : 0 ≤ radius) (hT : Proper a b c)
    (hfar : ∀ p, Hull ![a, b, c] p → radius < distance p center) :
    triangleSphere a b c center radius = .outside := by
  cases h : triangleSphere a b c center radius with
  | inside =>
    have := (C119_inside hr).mp h _ (hull_node _ 0)
    exact absurd (hfar _ (hull_node _ 0)) (not_lt.mpr this.le)
  | outside => rfl
  | intersects =>
    obtain ⟨⟨p, hp, hp'⟩, _⟩ := C119_intersects_partial hr hT h
    exact absurd (hfar p hp) (not_lt.mpr hp')

/-- **C119** A triangle that crosses the sphere is reported to intersect it. -/
theorem C119_crossing {a b c center p q : V3} {radius : ℝ} (hr : 0 ≤ radius)
    (hp : Hull ![a, b, c] p) (hp' : distance p center < radius)
    (hq : Hull ![a, b, c] q) (hq' : radius ≤ distance q center) :
    triangleSphere a b c center radius = .intersects := by
  cases h : triangleSphere a b c center radius with
  | inside => exact absurd ((C119_inside hr).mp h q hq) (not_lt.mpr hq')
  | outside => exact absurd hp' (not_lt.mpr (C119_outside hr h p hp))
  | intersects => rfl

/-- A triangle above the sphere, which meets neither its nodes nor its edges. -/
theorem example_proper : Proper ![-3, -3, 1 / 2] ![3, -3, 1 / 2] ![0, 5, 1 / 2] := by
  unfold Proper
  rw [LinearIndependent.pair_iff]
  intro s t h
  have h0 := congrFun h 0
  have h1 := congrFun h 1
  simp only [Pi.add_apply, Pi.smul_apply, Pi.sub_apply, smul_eq_mul, Pi.zero_apply,
    Matrix.cons_val_zero, Matrix.cons_val_one, Matrix.cons_val] at h0 h1
  constructor <;> linarith

/-- The hypotheses are met: the face of this triangle, but no edge or node, crosses the unit sphere. -/
example : triangleSphere ![-3, -3, 1 / 2] ![3, -3, 1 / 2] ![0, 5, 1 / 2] ![0, 0, 0] 1 = .intersects := by
  refine C119_crossing (p := ![0, 0, 1 / 2]) (q := ![-3, -3, 1 / 2]) (by norm_num) ?_ ?_ (hull_node _ 0) ?_
  · refine hull_three.mpr ⟨5 / 16, 5 / 16, 3 / 8, by norm_num, by norm_num, by norm_num, by norm_num, ?_⟩
    funext i
    fin_cases i <;>
      simp only [Pi.add_apply, Pi.smul_apply, smul_eq_mul, Matrix.cons_val_zero, Matrix.cons_val_one,
        Matrix.cons_val, Fin.zero_eta, Fin.mk_one, Fin.reduceFinMk] <;> norm_num
  · rw [distance_lt (by norm_num)]
    simp only [dot, Pi.sub_apply, Matrix.cons_val_zero, Matrix.cons_val_one, Matrix.cons_val]; norm_num
  · rw [le_distance (by norm_num)]
    simp only [dot, Pi.sub_apply, Matrix.cons_val_zero, Matrix.cons_val_one, Matrix.cons_val]; norm_num

/-- And it is outside the sphere of radius 1/4. -/
example : triangleSphere ![-3, -3, 1 / 2] ![3, -3, 1 / 2] ![0, 5, 1 / 2] ![0, 0, 0] (1 / 4) = .outside := by
  refine C119_far (by norm_num) example_proper fun p hp => ?_
  obtain ⟨u, v, w, hu, hv, hw, hs, rfl⟩ := hull_three.mp hp
  rw [lt_distance (by norm_num)]
  simp only [dot, Pi.sub_apply, Pi.add_apply, Pi.smul_apply, smul_eq_mul, Matrix.cons_val_zero,
    Matrix.cons_val_one, Matrix.cons_val]
  have h1 : u * (1 / 2) + v * (1 / 2) + w * (1 / 2) - 0 = 1 / 2 := by linarith
  rw [h1]
  nlinarith [mul_self_nonneg (u * -3 + v * 3 + w * 0 - 0), mul_self_nonneg (u * -3 + v * -3 + w * 5 - 0)]

/-- **C119** disagreement: a "triangle" with two nodes at the same place, ten radii away from the
center, is reported to intersect the sphere. -/
theorem C119_degenerate :
    triangleSphere ![-1, 0, 10] ![-1, 0, 10] ![1, 0, 10] ![0, 0, 0] 1 = .intersects ∧
      ∀ p, Hull ![![-1, 0, 10], ![-1, 0, 10], ![1, 0, 10]] p → 10 ≤ distance p ![0, 0, 0] := by
  constructor
  · refine triangleSphere_cases (P := fun s => s = .intersects) ?_ ?_ ?_
    · intro _
      unfold separationTest
      rw [if_neg, if_neg, if_neg, if_neg, if_neg, if_neg, if_neg]
      · rintro ⟨-, -, h⟩
        unfold project dot at h
        simp only [Pi.sub_apply, Pi.add_apply, Pi.smul_apply, smul_eq_mul, Pi.zero_apply,
          Matrix.cons_val_zero, Matrix.cons_val_one, Matrix.cons_val] at h
        norm_num at h
      · rintro ⟨-, -, h⟩
        unfold project dot at h
        simp only [Pi.sub_apply, Pi.add_apply, Pi.smul_apply, smul_eq_mul, Pi.zero_apply,
          Matrix.cons_val_zero, Matrix.cons_val_one, Matrix.cons_val] at h
        norm_num at h
      · rintro ⟨h, -⟩
        unfold dot at h
        simp at h
      · rintro ⟨h, -⟩
        unfold dot at h
        simp only [Pi.sub_apply, Matrix.cons_val_zero, Matrix.cons_val_one, Matrix.cons_val] at h
        norm_num at h
      · rintro ⟨h, -⟩
        unfold dot at h
        simp only [Pi.sub_apply, Matrix.cons_val_zero, Matrix.cons_val_one, Matrix.cons_val] at h
        norm_num at h
      · rintro ⟨h, -⟩
        unfold dot at h
        simp only [Pi.sub_apply, Matrix.cons_val_zero, Matrix.cons_val_one, Matrix.cons_val] at h
        norm_num at h
      · rintro ⟨h, -⟩
        unfold dot cross at h
        simp at h
    · intro h
      have := h 0
      unfold dot at this
      simp only [Pi.sub_apply, Matrix.cons_val_zero, Matrix.cons_val_one, Matrix.cons_val] at this
      norm_num at this
    · rintro _ _; rfl
  · intro p hp
    obtain ⟨u, v, w, hu, hv, hw, hs, rfl⟩ := hull_three.mp hp
    rw [le_distance (by norm_num)]
    simp only [dot, Pi.sub_apply, Pi.add_apply, Pi.smul_apply, smul_eq_mul, Matrix.cons_val_zero,
      Matrix.cons_val_one, Matrix.cons_val]
    have h1 : u * 10 + v * 10 + w * 10 - 0 = 10 := by linarith
    rw [h1]
    nlinarith [mul_self_nonneg (u * -1 + v * -1 + w * 1 - 0), mul_self_nonneg (u * 0 + v * 0 + w * 0 - 0)]

end Verif.Geometry
