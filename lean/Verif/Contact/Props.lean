import Verif.Contact.Lemmas

/-!
# Property C29: contact forces
-/

noncomputable section

namespace Verif.Contact

open Verif Verif.Mech Verif.Neigh
open scoped Classical

/-- C29: the contact force density of every point is the sum, over the pairs of the contact list, of the volume
of the partner times what the contact law gives (with opposite sign for the second point of a pair). -/
theorem C29_law (P : Params) (F : Fields) (ids : List Nat) (nbs : List (List Nat)) (f : Nat → V3)
    (hR : 0 ≤ P.radius) (hlen : ids.length = nbs.length)
    (hv : ∀ x ∈ pairs ids nbs, 0 ≤ F.vol x.1 ∧ 0 ≤ F.vol x.2)
    (h : computeForce P F ids (listOf nbs) = .ok f) (k : Nat) :
    f k = ((pairs ids nbs).map fun x =>
      (if x.1 = k then F.vol x.2 • law P F x.1 x.2 else 0) -
        (if x.2 = k then F.vol x.1 • law P F x.1 x.2 else 0)).sum := by
  obtain ⟨gs, h1, h2, h3⟩ := computeForce_scattered hR hlen hv h
  rw [h3 k, Pi.zero_apply, zero_add]
  have : gs = (pairs ids nbs).map fun x => (asBond x, law P F x.1 x.2) := by
    clear h3 h
    generalize pairs ids nbs = ps at h1
    induction gs generalizing ps with
    | nil => cases ps with
      | nil => rfl
      | cons _ _ => cases h1
    | cons g gs ih =>
      cases ps with
      | nil => cases h1
      | cons x ps =>
        rw [List.map_cons, List.map_cons, List.cons.injEq] at h1
        rw [List.map_cons, ← ih (fun y hy => h2 y (List.mem_cons_of_mem _ hy)) ps h1.2]
        congr 1
        have := h2 g List.mem_cons_self
        exact Prod.ext h1.1 (by rw [this, h1.1]; rfl)
  rw [this, List.map_map]
  rfl

/-- C29, range: points at or beyond the contact radius exert no force on each other. -/
theorem C29_range (P : Params) (F : Fields) (i j : Nat) (h : P.radius ≤ len (F.y j - F.y i)) :
    law P F i j = 0 := law_far (not_lt.2 h)

/-- C29, a point all of whose contact pairs are at or beyond the contact radius carries no contact force. -/
theorem C29_no_force (P : Params) (F : Fields) (ids : List Nat) (nbs : List (List Nat)) (f : Nat → V3)
    (hR : 0 ≤ P.radius) (hlen : ids.length = nbs.length)
    (hv : ∀ x ∈ pairs ids nbs, 0 ≤ F.vol x.1 ∧ 0 ≤ F.vol x.2)
    (h : computeForce P F ids (listOf nbs) = .ok f) (k : Nat)
    (hk : ∀ x ∈ pairs ids nbs, x.1 = k ∨ x.2 = k → P.radius ≤ len (F.y x.2 - F.y x.1)) : f k = 0 := by
  rw [C29_law P F ids nbs f hR hlen hv h k]
  apply List.sum_eq_zero
  intro z hz
  obtain ⟨x, hx, rfl⟩ := List.mem_map.1 hz
  by_cases h1 : x.1 = k
  · rw [C29_range P F x.1 x.2 (hk x hx (Or.inl h1))]; simp
  · by_cases h2 : x.2 = k
    · rw [C29_range P F x.1 x.2 (hk x hx (Or.inr h2))]; simp
    · simp [h1, h2]

theorem dot_unit (d w : V3) : unit d ⬝ᵥ w = (len d)⁻¹ * (d ⬝ᵥ w) := by
  unfold unit
  rw [smul_dotProduct, smul_eq_mul]

theorem unit_dot_self {d : V3} (h : d ≠ 0) : unit d ⬝ᵥ unit d = 1 := by
  rw [← len_sq, len_unit h, one_mul]

theorem tangential_perp {d : V3} (h : d ≠ 0) (w : V3) : unit d ⬝ᵥ tangential (unit d) w = 0 := by
  unfold tangential
  rw [dotProduct_sub, dotProduct_smul, unit_dot_self h, smul_eq_mul, mul_one, sub_self]

theorem law_along {P : Params} {F : Fields} {i j : Nat} (hd : F.y j - F.y i ≠ 0) :
    law P F i j ⬝ᵥ unit (F.y j - F.y i) = -strength P (len (F.y j - F.y i)) := by
  unfold law
  rw [smul_dotProduct, add_dotProduct, smul_dotProduct, smul_dotProduct, unit_dot_self hd,
    dot_unit, dotProduct_comm _ (unit (F.y j - F.y i)), tangential_perp hd]
  simp

/-- C29, repulsion: a point closer than the contact radius is pushed away from its partner: the component of the
force along the direction to the partner is negative, with and without friction. -/
theorem C29_repulsive (P : Params) (F : Fields) (i j : Nat) (hk : 0 < P.springConstant) (hh : 0 < P.horizon)
    (hd : F.y j ≠ F.y i) (h : len (F.y j - F.y i) < P.radius) :
    law P F i j ⬝ᵥ unit (F.y j - F.y i) < 0 := by
  rw [law_along (sub_ne_zero.2 hd), strength, if_pos h]
  have := Real.pi_pos
  have : 0 < P.radius - len (F.y j - F.y i) := by linarith
  have : 0 < 9 * P.springConstant * (P.radius - len (F.y j - F.y i)) / (Real.pi * P.horizon ^ 5) := by positivity
  linarith

/-- C29, direction: without friction the force of a pair acts along the line joining the two points. -/
theorem C29_central (P : Params) (F : Fields) (i j : Nat) (hf : P.friction = 0) :
    ∃ s : ℝ, law P F i j = s • (F.y j - F.y i) := by
  refine ⟨-(strength P (len (F.y j - F.y i)) * (len (F.y j - F.y i))⁻¹), ?_⟩
  unfold law unit
  rw [hf]
  simp only [zero_mul, zero_smul, add_zero, smul_smul]
  congr 1
  ring

/-- C29, friction: with a non-negative coefficient the tangential part of the force opposes the sliding of the
two points and does not exceed the coefficient times the size of the repulsion. -/
theorem C29_friction (P : Params) (F : Fields) (i j : Nat) (hd : F.y j ≠ F.y i) (hmu : 0 ≤ P.friction) :
    tangential (unit (F.y j - F.y i)) (law P F i j) ⬝ᵥ (F.v i - F.v j) ≤ 0 ∧
    len (tangential (unit (F.y j - F.y i)) (law P F i j)) ≤
      P.friction * |law P F i j ⬝ᵥ unit (F.y j - F.y i)| := by
  have hne := sub_ne_zero.2 hd
  have ht : tangential (unit (F.y j - F.y i)) (law P F i j) =
      (-(P.friction * |strength P (len (F.y j - F.y i))|)) •
        unit (tangential (unit (F.y j - F.y i)) (F.v i - F.v j)) := by
    rw [tangential, dotProduct_comm, law_along hne]
    unfold law
    module
  rw [ht, law_along hne, abs_neg]
  set n := unit (F.y j - F.y i) with hn
  set w := F.v i - F.v j with hw
  have hnn : n ⬝ᵥ n = 1 := unit_dot_self hne
  have hc : 0 ≤ P.friction * |strength P (len (F.y j - F.y i))| := mul_nonneg hmu (abs_nonneg _)
  constructor
  · have h1 : tangential n w ⬝ᵥ w = tangential n w ⬝ᵥ tangential n w := by
      conv_rhs => rw [tangential, sub_dotProduct, smul_dotProduct, ← tangential, tangential_perp hne]
      conv_rhs => rw [dotProduct_comm, smul_zero, sub_zero]
    rw [smul_dotProduct, dot_unit, h1, ← len_sq, smul_eq_mul]
    have : 0 ≤ (len (tangential n w))⁻¹ * (len (tangential n w) * len (tangential n w)) := by
      have := len_nonneg (tangential n w)
      positivity
    nlinarith
  · rw [len_smul, abs_neg, abs_of_nonneg hc]
    by_cases h0 : tangential n w = 0
    · rw [h0]
      have : len (unit (0 : V3)) = 0 := len_eq_zero.2 (by simp [unit])
      rw [this, mul_zero]
      exact hc
    · rw [len_unit h0, mul_one]

/-- C29, balance: contact forces, weighted with the cell volumes, sum to zero, with and without friction. -/
theorem C29_balanced (P : Params) (F : Fields) (ids : List Nat) (nbs : List (List Nat)) (f : Nat → V3)
    (hR : 0 ≤ P.radius) (hlen : ids.length = nbs.length)
    (hv : ∀ x ∈ pairs ids nbs, 0 ≤ F.vol x.1 ∧ 0 ≤ F.vol x.2)
    (h : computeForce P F ids (listOf nbs) = .ok f) (N : Nat) (hN : ∀ x ∈ pairs ids nbs, x.1 < N ∧ x.2 < N) :
    totalForce F.vol f N = 0 := by
  have := sum_scattered N (fun k => F.vol k • LinearMap.id) (computeForce_scattered hR hlen hv h) (by
    intro b hb
    obtain ⟨x, hx, rfl⟩ := List.mem_map.1 hb
    exact hN x hx) (by
    intro b _ g _
    simp only [LinearMap.smul_apply, LinearMap.id_apply, volI, volJ]
    module)
  simpa [totalForce] using this

/-- C29, moment: without friction contact forces exert no total moment. -/
theorem C29_moment (P : Params) (F : Fields) (ids : List Nat) (nbs : List (List Nat)) (f : Nat → V3)
    (hR : 0 ≤ P.radius) (hlen : ids.length = nbs.length)
    (hv : ∀ x ∈ pairs ids nbs, 0 ≤ F.vol x.1 ∧ 0 ≤ F.vol x.2) (hf : P.friction = 0)
    (h : computeForce P F ids (listOf nbs) = .ok f) (N : Nat) (hN : ∀ x ∈ pairs ids nbs, x.1 < N ∧ x.2 < N) :
    totalMoment F.y F.vol f N = 0 := by
  have := sum_scattered N (fun k => F.vol k • crossProduct (F.y k)) (computeForce_scattered hR hlen hv h) (by
    intro b hb
    obtain ⟨x, hx, rfl⟩ := List.mem_map.1 hb
    exact hN x hx) (by
    intro b _ g hg
    obtain ⟨s, hs⟩ := C29_central P F b.i b.j hf
    rw [hg, hs]
    simp only [LinearMap.smul_apply, volI, volJ, map_smul]
    have : crossProduct (F.y b.i) (F.y b.j - F.y b.i) = crossProduct (F.y b.j) (F.y b.j - F.y b.i) := by
      rw [map_sub, map_sub, cross_self, cross_self, zero_sub, sub_zero, cross_anticomm]
    rw [this]
    module)
  simpa [totalMoment] using this

/-- C29, definedness: with a non-zero horizon and no two contact partners at the same place the forces are
computed. -/
theorem C29_defined (P : Params) (F : Fields) (ids : List Nat) (nbs : List (List Nat)) (hh : P.horizon ≠ 0)
    (hlen : ids.length = nbs.length) (hd : ∀ x ∈ pairs ids nbs, F.y x.2 ≠ F.y x.1) :
    ∃ f, computeForce P F ids (listOf nbs) = .ok f := by
  have hpair : ∀ i j f, F.y j ≠ F.y i → ∃ f', contactPair P F i j f = .ok f' := by
    intro i j f h
    rw [contactPair]
    split
    · have h0 : distance (F.y i) (F.y j) ≠ 0 := by
        rw [distance_eq, Ne, len_eq_zero, sub_eq_zero]
        exact h
      have hs : ∃ t, spring P (distance (F.y i) (F.y j)) = .ok t := by
        rw [spring, if_neg (by have := Real.pi_ne_zero; simp [this, hh]), if_neg hh]
        exact ⟨_, rfl⟩
      obtain ⟨t, ht⟩ := hs
      have hp : ∃ g, pairForces P F i j = .ok g := by
        rw [pairForces, ht]
        simp only
        rw [if_neg h0]
        by_cases hf : P.friction ≠ 0
        · rw [if_pos hf]
          exact ⟨_, rfl⟩
        · rw [if_neg hf]
          exact ⟨_, rfl⟩
      obtain ⟨g, hg⟩ := hp
      rw [hg]
      exact ⟨_, rfl⟩
    · exact ⟨_, rfl⟩
  have hnb : ∀ (ns : List Nat) (i : Nat) (pre post : List Int) (pos : Nat) (f : Nat → V3), pos = pre.length →
      (∀ j ∈ ns, F.y j ≠ F.y i) →
      ∃ f', neighborLoop P F i (pre ++ (ns.map (fun (n : Nat) => (n : Int)) ++ post)) ns.length pos f = .ok f' := by
    intro ns i
    induction ns with
    | nil => intro pre post pos f _ _; exact ⟨f, rfl⟩
    | cons n ns ih =>
      intro pre post pos f hpos hv
      have hr : readAt (pre ++ ((n :: ns).map (fun (n : Nat) => (n : Int)) ++ post)) pos = .ok (n : Int) := by
        simpa using readAt_mid pre (n : Int) (ns.map (fun (n : Nat) => (n : Int)) ++ post) pos hpos
      obtain ⟨f1, h1⟩ := hpair i n f (hv n List.mem_cons_self)
      obtain ⟨f2, h2⟩ := ih (pre ++ [(n : Int)]) post (pos + 1) f1 (by simp [hpos])
        fun j hj => hv j (List.mem_cons_of_mem _ hj)
      rw [List.length_cons, neighborLoop, hr]
      simp only
      rw [if_neg (by omega), Int.toNat_natCast, h1]
      simp only
      exact ⟨f2, by simpa using h2⟩
  have hown : ∀ (ids : List Nat) (nbs : List (List Nat)) (pre : List Int) (pos : Nat) (f : Nat → V3),
      ids.length = nbs.length → pos = pre.length → (∀ x ∈ pairs ids nbs, F.y x.2 ≠ F.y x.1) →
      ∃ f', ownedLoop P F (pre ++ listOf nbs) ids pos f = .ok f' := by
    intro ids
    induction ids with
    | nil => intro nbs pre pos f _ _ _; exact ⟨f, rfl⟩
    | cons i ids ih =>
      intro nbs pre pos f hlen hpos hv
      cases nbs with
      | nil => cases hlen
      | cons ns nbs =>
        have hl : listOf (ns :: nbs) =
            ((ns.length : Nat) : Int) :: (ns.map (fun (n : Nat) => (n : Int)) ++ listOf nbs) := by
          simp [listOf]
        have hp : pairs (i :: ids) (ns :: nbs) = (ns.map fun j => (i, j)) ++ pairs ids nbs := by
          simp [pairs]
        rw [hp] at hv
        obtain ⟨f1, h1⟩ := hnb ns i (pre ++ [((ns.length : Nat) : Int)]) (listOf nbs) (pos + 1) f
          (by simp [hpos]) (fun j hj => hv (i, j) (List.mem_append_left _ (List.mem_map.2 ⟨j, hj, rfl⟩)))
        obtain ⟨f2, h2⟩ := ih nbs (pre ++ ((ns.length : Nat) : Int) :: ns.map (fun (n : Nat) => (n : Int)))
          (pos + 1 + ns.length) f1 (by simpa using hlen) (by simp [hpos]; omega)
          (fun x hx => hv x (List.mem_append_right _ hx))
        rw [hl, ownedLoop, readAt_mid pre _ _ pos hpos]
        simp only [Int.toNat_natCast]
        rw [List.append_assoc, List.singleton_append] at h1
        rw [h1]
        simp only
        exact ⟨f2, by simpa using h2⟩
  have := hown ids nbs [] 0 (fun _ => 0) hlen rfl hd
  simpa [computeForce] using this

/-- C29: an id that is not in the overlap map (stored as -1) stops the evaluation. -/
theorem C29_invalid_id (P : Params) (F : Fields) (i : Nat) (ids : List Nat) (rest : List Int) :
    computeForce P F (i :: ids) (1 :: -1 :: rest) = .fail .terminate := by
  rw [computeForce, ownedLoop]
  have : readAt (1 :: -1 :: rest) 0 = .ok (1 : Int) := rfl
  rw [this]
  simp only
  have h1 : (1 : Int).toNat = 0 + 1 := rfl
  have h2 : readAt (1 :: -1 :: rest) (0 + 1) = .ok (-1 : Int) := rfl
  rw [h1, neighborLoop, h2]
  rfl

/-- Two points at distance one that slide past each other, contact radius two, friction. -/
def demoParams : Params := ⟨2, 1, 1/2, 1⟩

/-- The fields of the example. -/
def demoFields : Fields :=
  ⟨fun k => ![(k : ℝ), 0, 0], fun k => ![0, (k : ℝ), 0], fun _ => 1⟩

theorem demo_pairs : pairs [0, 1] [[1], [0]] = [(0, 1), (1, 0)] := rfl

/-- Non-vacuity: the example satisfies the hypotheses of all parts. -/
example : ∃ f, computeForce demoParams demoFields [0, 1] (listOf [[1], [0]]) = .ok f ∧
    totalForce demoFields.vol f 2 = 0 ∧ f 0 ≠ 0 := by
  have hd : ∀ x ∈ pairs [0, 1] [[1], [0]], demoFields.y x.2 ≠ demoFields.y x.1 := by
    rw [demo_pairs]
    intro x hx hc
    simp only [List.mem_cons, List.not_mem_nil, or_false] at hx
    have := congrFun hc 0
    rcases hx with rfl | rfl <;> simp [demoFields] at this
  have hv : ∀ x ∈ pairs [0, 1] [[1], [0]], 0 ≤ demoFields.vol x.1 ∧ 0 ≤ demoFields.vol x.2 := by
    intro x _
    simp [demoFields]
  obtain ⟨f, hf⟩ := C29_defined demoParams demoFields [0, 1] [[1], [0]] (by simp [demoParams]) rfl hd
  refine ⟨f, hf, C29_balanced _ _ _ _ _ (by norm_num [demoParams]) rfl hv hf 2 ?_, ?_⟩
  · rw [demo_pairs]
    intro x hx
    simp only [List.mem_cons, List.not_mem_nil, or_false] at hx
    rcases hx with rfl | rfl <;> simp
  · rw [C29_law _ _ _ _ _ (by norm_num [demoParams]) rfl hv hf 0, demo_pairs]
    have hl : ∀ i j : Nat, ((i = 0 ∧ j = 1) ∨ (i = 1 ∧ j = 0)) →
        len (demoFields.y j - demoFields.y i) = 1 := by
      intro i j h
      rcases h with ⟨rfl, rfl⟩ | ⟨rfl, rfl⟩ <;> simp [demoFields, len]
    have h01 := C29_repulsive demoParams demoFields 0 1 (by norm_num [demoParams]) (by norm_num [demoParams])
      (hd (0, 1) (by rw [demo_pairs]; simp)) (by rw [hl 0 1 (by simp)]; norm_num [demoParams])
    have h10 := C29_repulsive demoParams demoFields 1 0 (by norm_num [demoParams]) (by norm_num [demoParams])
      (hd (1, 0) (by rw [demo_pairs]; simp)) (by rw [hl 1 0 (by simp)]; norm_num [demoParams])
    intro hc
    have hu : unit (demoFields.y 0 - demoFields.y 1) = -unit (demoFields.y 1 - demoFields.y 0) := by
      rw [← unit_neg, neg_sub]
    rw [hu, dotProduct_neg] at h10
    have := congrArg (fun w => w ⬝ᵥ unit (demoFields.y 1 - demoFields.y 0)) hc
    simp [demoFields] at this
    simp only [demoFields, Nat.cast_zero, Nat.cast_one] at h01 h10
    simp at h01 h10
    linarith

end Verif.Contact
