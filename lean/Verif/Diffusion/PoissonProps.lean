import Verif.Diffusion.Props

/-! Property theorems for the Poisson material: C109. -/

noncomputable section

namespace Verif.Diffusion

open Verif Verif.Neigh Verif.Mech Verif.Energy
open scoped Classical

/-- The displacement of a point. -/
def displacement (C : Config) (k : Nat) : V3 := C.y k - C.x k

/-- **C109**, balance: the total force is zero, for all neighborhoods. -/
theorem C109_balance (C : Config) (nbs : List (List Nat)) (F : Nat → V3) (N : Nat)
    (hN : Within nbs N) (h : poissonMaterial C nbs.length (encode nbs) = .ok F) :
    totalForce C.v F N = 0 :=
  force_of_scattered (poisson_scattered h) (bonds_within hN)

theorem poissonBond_eq {C : Config} {b : Bond} {g : V3} (h : poissonBond C b = .ok g) :
    Real.pi * C.horizon * C.horizon * C.horizon * C.horizon * len (C.x b.i - C.x b.j) ≠ 0 ∧
    g = (3 / (Real.pi * C.horizon * C.horizon * C.horizon * C.horizon * len (C.x b.i - C.x b.j))) •
      (displacement C b.j - displacement C b.i) := by
  unfold poissonBond at h
  simp only at h
  split at h
  · cases h
  · next hd =>
    cases h
    refine ⟨hd, ?_⟩
    funext c
    simp only [Pi.smul_apply, smul_eq_mul, displacement, Pi.sub_apply]
    ring

/-- **C109**, dissipation: the forces never feed the displacement, and do no work if and only if bonded
points have the same displacement. -/
theorem C109_dissipation (C : Config) (nbs : List (List Nat)) (F : Nat → V3) (N : Nat)
    (hN : Within nbs N) (hv : ∀ p, 0 < C.v p) (h : poissonMaterial C nbs.length (encode nbs) = .ok F) :
    ∑ k ∈ Finset.range N, C.v k * (F k ⬝ᵥ displacement C k) ≤ 0 ∧
    (∑ k ∈ Finset.range N, C.v k * (F k ⬝ᵥ displacement C k) = 0 ↔
      ∀ p j, HasBond nbs p j → displacement C p = displacement C j) := by
  obtain ⟨gs, g1, g2, g3⟩ := poisson_scattered h
  have hbw := bonds_within hN
  have h4 := sum_scattered_gen N (fun k => C.v k • dotL (displacement C k)) g3 (fun x hx => by
    have : x.1 ∈ bondsOf nbs := by rw [← g1]; exact List.mem_map_of_mem hx
    exact hbw _ this)
  have hpow : ∑ k ∈ Finset.range N, C.v k * (F k ⬝ᵥ displacement C k) =
      ∑ k ∈ Finset.range N, (C.v k • dotL (displacement C k)) (F k) := rfl
  have hterm : ∀ x ∈ gs, ∃ c : ℝ, 0 < c ∧ nbrVol C x.1 * (C.v x.1.i • dotL (displacement C x.1.i)) x.2 -
      selfVol C x.1 * (C.v x.1.j • dotL (displacement C x.1.j)) x.2 =
      -(c * len (displacement C x.1.j - displacement C x.1.i) ^ 2) := by
    intro x hx
    obtain ⟨hd, hg⟩ := poissonBond_eq (g2 x hx)
    have hpos : 0 < Real.pi * C.horizon * C.horizon * C.horizon * C.horizon *
        len (C.x x.1.i - C.x x.1.j) := by
      refine lt_of_le_of_ne ?_ hd.symm
      have h1 := Real.pi_pos
      have h2 : 0 ≤ len (C.x x.1.i - C.x x.1.j) := Real.sqrt_nonneg _
      have h3 : Real.pi * C.horizon * C.horizon * C.horizon * C.horizon *
        len (C.x x.1.i - C.x x.1.j) = Real.pi * (C.horizon ^ 2) ^ 2 * len (C.x x.1.i - C.x x.1.j) := by
        ring
      rw [h3]
      positivity
    refine ⟨C.v x.1.j * C.v x.1.i * (3 / (Real.pi * C.horizon * C.horizon * C.horizon * C.horizon *
        len (C.x x.1.i - C.x x.1.j))), ?_, ?_⟩
    · have := hv x.1.i
      have := hv x.1.j
      positivity
    · have e : ∀ w, dotL w x.2 = (3 / (Real.pi * C.horizon * C.horizon * C.horizon * C.horizon *
        len (C.x x.1.i - C.x x.1.j))) * ((displacement C x.1.j - displacement C x.1.i) ⬝ᵥ w) := by
        intro w
        rw [hg, map_smul, smul_eq_mul]
        rfl
      have e2 : len (displacement C x.1.j - displacement C x.1.i) ^ 2 =
          (displacement C x.1.j - displacement C x.1.i) ⬝ᵥ displacement C x.1.j -
          (displacement C x.1.j - displacement C x.1.i) ⬝ᵥ displacement C x.1.i := by
        rw [← dotProduct_sub, len, Real.sq_sqrt]
        · simp [dotProduct, Fin.sum_univ_three]
        · nlinarith [mul_self_nonneg ((displacement C x.1.j - displacement C x.1.i) 0),
            mul_self_nonneg ((displacement C x.1.j - displacement C x.1.i) 1),
            mul_self_nonneg ((displacement C x.1.j - displacement C x.1.i) 2)]
      rw [e2]
      simp only [LinearMap.smul_apply, smul_eq_mul, e, nbrVol, selfVol]
      ring
  rw [hpow, h4]
  simp only [Pi.zero_apply, map_zero, Finset.sum_const_zero, zero_add]
  have hle : ∀ y ∈ gs.map fun x => nbrVol C x.1 * (C.v x.1.i • dotL (displacement C x.1.i)) x.2 -
      selfVol C x.1 * (C.v x.1.j • dotL (displacement C x.1.j)) x.2, y ≤ 0 := by
    intro y hy
    obtain ⟨x, hx, rfl⟩ := List.mem_map.1 hy
    obtain ⟨c, hc, he⟩ := hterm x hx
    rw [he]
    have := mul_nonneg hc.le (sq_nonneg (len (displacement C x.1.j - displacement C x.1.i)))
    linarith
  refine ⟨sum_nonpos' hle, fun h0 p j hb => ?_, fun hall => ?_⟩
  · obtain ⟨b, hm, rfl, rfl⟩ := bond_of_has hb
    rw [← g1] at hm
    obtain ⟨x, hx, rfl⟩ := List.mem_map.1 hm
    by_contra hne
    obtain ⟨c, hc, he⟩ := hterm x hx
    have hl := len_pos (Ne.symm hne)
    have := sum_neg' hle (List.mem_map_of_mem hx) (by
      rw [he]
      have : 0 < c * len (displacement C x.1.j - displacement C x.1.i) ^ 2 := by positivity
      linarith)
    linarith
  · apply List.sum_eq_zero
    intro y hy
    obtain ⟨x, hx, rfl⟩ := List.mem_map.1 hy
    obtain ⟨c, _, he⟩ := hterm x hx
    rw [he]
    have hb : x.1 ∈ bondsOf nbs := by rw [← g1]; exact List.mem_map_of_mem hx
    rw [hall _ _ (mem_bondsOf hb), sub_self, len_eq_zero.2 rfl]
    ring

/-- The sum over the bonds that lead to a point is one over the points that have it as neighbor. -/
theorem bondsTo_sum (nbs : List (List Nat)) (k : Nat) (g : Nat → ℝ) :
    ((bondsOf nbs).map fun b => if b.j = k then g b.i else 0).sum =
      ∑ p ∈ Finset.range nbs.length, ((nbs.getD p []).count k : ℝ) * g p := by
  have hlt : ∀ b ∈ bondsOf nbs, b.i < nbs.length := by
    intro b hb
    obtain ⟨ns, hp, _⟩ := mem_bondsOf hb
    exact (List.getElem?_eq_some_iff.1 hp).1
  have := sum_partition (bondsOf nbs) nbs.length hlt (fun b => if b.j = k then g b.i else 0) fun _ => 1
  simp only [mul_one] at this
  rw [← this]
  apply Finset.sum_congr rfl
  intro p hp
  have hp := Finset.mem_range.1 hp
  have e : nbs[p]? = some (nbs.getD p []) := by
    rw [List.getD_eq_getElem?_getD, List.getElem?_eq_getElem hp, Option.getD_some]
  have := bondsAt_sum e fun i j => if j = k then g i else 0
  rw [bondsAt] at this
  rw [this]
  generalize nbs.getD p [] = ns
  induction ns with
  | nil => simp
  | cons a ns ih =>
    rw [List.map_cons, List.sum_cons, ih, List.count_cons]
    by_cases h : a = k
    · subst h; simp; ring
    · simp [h]

/-- **C109**, components: each component of the force is the flux divergence that the diffusion material
computes, with coefficient one, for the same component of the displacement as temperature. -/
theorem C109_components (C : Config) (nbs : List (List Nat)) (F : Nat → V3) (D : Nat → ℝ) (c : Fin 3)
    (hM : Mutual nbs) (hw : Within nbs nbs.length)
    (h : poissonMaterial C nbs.length (encode nbs) = .ok F)
    (hD : fluxDivergence ⟨C.x, C.v, none, fun _ => C.horizon, fun _ => 1⟩
      (fun k => C.y k c - C.x k c) nbs.length (encode nbs) = .ok D) :
    ∀ k < nbs.length, F k c = D k := by
  intro k hk
  obtain ⟨gs, g1, g2, g3⟩ := poisson_scattered h
  let g : Nat → Nat → ℝ := fun p q => 3 / (Real.pi * C.horizon * C.horizon * C.horizon * C.horizon *
    len (C.x p - C.x q)) * ((C.y q c - C.x q c) - (C.y p c - C.x p c)) * C.v q
  have hpull : ∀ x ∈ gs, pull (selfVol C) (nbrVol C) k x c =
      (if x.1.i = k then g x.1.i x.1.j else 0) + (if x.1.j = k then g k x.1.i else 0) := by
    intro x hx
    obtain ⟨_, hg⟩ := poissonBond_eq (g2 x hx)
    unfold pull
    rw [hg]
    simp only [Pi.sub_apply, g]
    have e1 : ((if x.1.i = k then nbrVol C x.1 • ((3 / (Real.pi * C.horizon * C.horizon * C.horizon *
        C.horizon * len (C.x x.1.i - C.x x.1.j))) • (displacement C x.1.j - displacement C x.1.i)) else 0 :
        V3)) c = if x.1.i = k then 3 / (Real.pi * C.horizon * C.horizon * C.horizon * C.horizon *
        len (C.x x.1.i - C.x x.1.j)) * ((C.y x.1.j c - C.x x.1.j c) - (C.y x.1.i c - C.x x.1.i c)) *
        C.v x.1.j else 0 := by
      split
      · simp only [Pi.smul_apply, smul_eq_mul, displacement, Pi.sub_apply, nbrVol]; ring
      · rfl
    have e2 : ((if x.1.j = k then selfVol C x.1 • ((3 / (Real.pi * C.horizon * C.horizon * C.horizon *
        C.horizon * len (C.x x.1.i - C.x x.1.j))) • (displacement C x.1.j - displacement C x.1.i)) else 0 :
        V3)) c = - if x.1.j = k then 3 / (Real.pi * C.horizon * C.horizon * C.horizon * C.horizon *
        len (C.x k - C.x x.1.i)) * ((C.y x.1.i c - C.x x.1.i c) - (C.y k c - C.x k c)) *
        C.v x.1.i else 0 := by
      split
      · next hj =>
        rw [← hj, len_swap (C.x x.1.j)]
        simp only [Pi.smul_apply, smul_eq_mul, displacement, Pi.sub_apply, selfVol]; ring
      · simp
    rw [e1, e2]
    ring
  have hF : F k c = ((bondsOf nbs).map fun b => (if b.i = k then g b.i b.j else 0) +
      (if b.j = k then g k b.i else 0)).sum := by
    rw [g3 k, ← g1, List.map_map]
    simp only [Pi.zero_apply, Pi.add_apply, zero_add]
    have : ∀ l : List (Bond × V3), (∀ x ∈ l, x ∈ gs) → (l.map (pull (selfVol C) (nbrVol C) k)).sum c =
        (l.map ((fun b : Bond => (if b.i = k then g b.i b.j else 0) +
          (if b.j = k then g k b.i else 0)) ∘ Prod.fst)).sum := by
      intro l
      induction l with
      | nil => intro _; rfl
      | cons x l ih =>
        intro hl
        rw [List.map_cons, List.sum_cons, List.map_cons, List.sum_cons, Pi.add_apply,
          ih fun y hy => hl y (List.mem_cons_of_mem _ hy), hpull x (hl x List.mem_cons_self)]
        rfl
    exact this gs fun _ hx => hx
  have e : nbs[k]? = some (nbs.getD k []) := by
    rw [List.getD_eq_getElem?_getD, List.getElem?_eq_getElem hk, Option.getD_some]
  have hin : ∀ j ∈ nbs.getD k [], j < nbs.length := fun j hj =>
    hw.2 _ (List.mem_of_getElem? e) j hj
  have hfirst : ((bondsOf nbs).map fun b => if b.i = k then g b.i b.j else 0).sum =
      ((nbs.getD k []).map (g k)).sum := by
    rw [← bondsAt_sum e g, bondsAt]
    generalize bondsOf nbs = l
    induction l with
    | nil => rfl
    | cons b l ih =>
      by_cases hb : b.i = k
      · rw [List.filter_cons_of_pos (by simpa using hb), List.map_cons, List.sum_cons, List.map_cons,
          List.sum_cons, ih, if_pos hb]
      · rw [List.filter_cons_of_neg (by simpa using hb), List.map_cons, List.sum_cons, ih, if_neg hb,
          zero_add]
  have hsecond : ((bondsOf nbs).map fun b => if b.j = k then g k b.i else 0).sum =
      ((nbs.getD k []).map (g k)).sum := by
    rw [bondsTo_sum nbs k (g k), sum_count _ nbs.length _ hin]
    apply Finset.sum_congr rfl
    intro p _
    rw [hM p k]
  rw [hF, List.sum_map_add, hfirst, hsecond, (flux_eq hD).2 k]
  have hflux : ∀ b ∈ bondsAt nbs k, fluxOf ⟨C.x, C.v, none, fun _ => C.horizon, fun _ => 1⟩
      (fun k => C.y k c - C.x k c) b = 2 * g b.i b.j := by
    intro b _
    unfold fluxOf kernelDenominator spacing quadWeight
    simp only [g]
    ring
  rw [List.map_congr_left hflux, List.sum_map_mul_left, bondsAt_sum e g]
  ring

/-- **C109**, defined: the computation ends with a result or terminates the program, never with undefined
behaviour. -/
theorem C109_defined (C : Config) (nbs : List (List Nat)) :
    ((C.horizon ≠ 0 ∧ ∀ p j, HasBond nbs p j → C.x p ≠ C.x j) →
      ∃ F, poissonMaterial C nbs.length (encode nbs) = .ok F) ∧
    ((∃ p j, HasBond nbs p j ∧ (C.horizon = 0 ∨ C.x p = C.x j)) →
      poissonMaterial C nbs.length (encode nbs) = .fail .terminate) := by
  constructor
  · rintro ⟨hh, hx⟩
    rw [poissonMaterial, kernel, visited_encode]
    apply scatter_ok
    intro b hb
    have h3 := (len_pos (hx _ _ (mem_bondsOf hb))).ne'
    have h4 := Real.pi_ne_zero
    have h5 : ¬ Real.pi * C.horizon * C.horizon * C.horizon * C.horizon * len (C.x b.i - C.x b.j) = 0 := by
      positivity
    exact ⟨_, by rw [poissonBond]; exact if_neg h5⟩
  · rintro ⟨p, j, hb, h⟩
    rw [poissonMaterial, kernel, visited_encode]
    simp only
    obtain ⟨b, hm, rfl, rfl⟩ := bond_of_has hb
    have key : ∀ (bs : List Bond) (G : Nat → V3), b ∈ bs →
        scatter (selfVol C) (nbrVol C) (poissonBond C) bs G = .fail .terminate := by
      intro bs
      induction bs with
      | nil => intro G hb; cases hb
      | cons d bs ih =>
        intro G hd
        rw [scatter]
        by_cases h0 : Real.pi * C.horizon * C.horizon * C.horizon * C.horizon *
            len (C.x d.i - C.x d.j) = 0
        · rw [poissonBond, if_pos h0]
        · rw [poissonBond, if_neg h0]
          apply ih
          rcases List.mem_cons.1 hd with rfl | hd
          · exfalso
            apply h0
            rcases h with h | h
            · rw [h]; ring
            · have : len (C.x b.i - C.x b.j) = 0 := by rw [h, sub_self]; exact len_eq_zero.2 rfl
              rw [this, mul_zero]
          · exact hd
    exact key _ _ hm

/-- Three points, displaced differently. -/
def pulled : Config where
  x := fun k => ![k, 0, 0]
  y := fun k => ![2 * k, k * k, 0]
  v := fun _ => 1
  m := fun _ => 1
  damage := fun _ => 0
  omega := fun _ _ => 1
  horizon := 2
  thermal := none

/-- The case above is met by a body that is not at rest. -/
example : Mutual rodNbs ∧ Within rodNbs rodNbs.length ∧ ∃ F,
    poissonMaterial pulled rodNbs.length (encode rodNbs) = .ok F ∧
    ∑ k ∈ Finset.range 3, pulled.v k * (F k ⬝ᵥ displacement pulled k) < 0 := by
  have hw : Within rodNbs 3 := by unfold Within; decide
  obtain ⟨F, hF⟩ := (C109_defined pulled rodNbs).1 ⟨by norm_num [pulled], rod_conducting.apart⟩
  refine ⟨?_, hw, F, hF, ?_⟩
  · intro p q
    match p, q with
    | 0, 0 => rfl
    | 0, 1 => rfl
    | 0, 2 => rfl
    | 0, q + 3 => rfl
    | 1, 0 => rfl
    | 1, 1 => rfl
    | 1, 2 => rfl
    | 1, q + 3 => rfl
    | 2, 0 => rfl
    | 2, 1 => rfl
    | 2, 2 => rfl
    | 2, q + 3 => rfl
    | p + 3, 0 => rfl
    | p + 3, 1 => rfl
    | p + 3, 2 => rfl
    | p + 3, q + 3 => rfl
  · obtain ⟨h1, h2⟩ := C109_dissipation pulled rodNbs F 3 hw (fun _ => by simp [pulled]) hF
    refine lt_of_le_of_ne h1 fun h0 => ?_
    have := h2.1 h0 0 1 ⟨[1], rfl, by simp⟩
    have := congrFun this 0
    norm_num [displacement, pulled] at this

end Verif.Diffusion
