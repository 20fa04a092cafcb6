import Verif.Contact.Spec
import Verif.Mech.Lemmas
import Verif.Mech.Defined
import Verif.Mech.Frame
import Mathlib.Tactic.FieldSimp
import Mathlib.Tactic.Positivity

/-! Lemmas for C29. -/

noncomputable section

namespace Verif.Contact

open Verif Verif.Mech Verif.Neigh
open scoped Classical

theorem len_nonneg (d : V3) : 0 ≤ len d := Real.sqrt_nonneg _

theorem len_sq (d : V3) : len d * len d = d ⬝ᵥ d := by
  rw [len_eq_dot, Real.mul_self_sqrt]
  simp only [dotProduct, Fin.sum_univ_three]
  nlinarith [mul_self_nonneg (d 0), mul_self_nonneg (d 1), mul_self_nonneg (d 2)]

theorem len_smul (a : ℝ) (d : V3) : len (a • d) = |a| * len d := by
  unfold len
  rw [← Real.sqrt_mul_self_eq_abs, ← Real.sqrt_mul (mul_self_nonneg a)]
  congr 1
  simp only [Pi.smul_apply, smul_eq_mul]
  ring

theorem distanceSquared_eq (a b : V3) :
    distanceSquared a b = (b - a) 0 * (b - a) 0 + (b - a) 1 * (b - a) 1 + (b - a) 2 * (b - a) 2 := by
  unfold distanceSquared
  simp only [Pi.sub_apply]
  ring

theorem distance_eq (a b : V3) : distance a b = len (b - a) := by
  rw [distance, distanceSquared_eq]
  rfl

theorem distance_lt (a b : V3) {R : ℝ} (hR : 0 ≤ R) :
    distanceSquared a b < R * R ↔ len (b - a) < R := by
  have h : distanceSquared a b = len (b - a) * len (b - a) := by
    rw [distanceSquared_eq, len_sq]
    simp [dotProduct, Fin.sum_univ_three]
  rw [h]
  constructor
  · intro h
    by_contra hc
    rw [not_lt] at hc
    exact absurd h (not_lt.2 (mul_self_le_mul_self hR hc))
  · exact mul_self_lt_mul_self (len_nonneg _)

theorem unit_smul {a : ℝ} (ha : 0 < a) (d : V3) : unit (a • d) = unit d := by
  unfold unit
  rw [len_smul, abs_of_pos ha, smul_smul, mul_inv, mul_comm a⁻¹, mul_assoc, inv_mul_cancel₀ ha.ne', mul_one]

theorem unit_neg (d : V3) : unit (-d) = -unit d := by
  have : len (-d) = len d := by
    have := len_smul (-1) d
    rw [neg_one_smul, abs_neg, abs_one, one_mul] at this
    exact this
  unfold unit
  rw [this, smul_neg]

theorem len_unit {d : V3} (h : d ≠ 0) : len (unit d) = 1 := by
  have h0 : len d ≠ 0 := fun hc => h (len_eq_zero.1 hc)
  unfold unit
  rw [len_smul, abs_of_nonneg (inv_nonneg.2 (len_nonneg d)), inv_mul_cancel₀ h0]

theorem frictionForce_eq (mu : ℝ) (N r : V3) : frictionForce mu N r = (-(mu * len N)) • unit r := by
  unfold frictionForce unit
  split
  · next h =>
    funext c
    simp only [Pi.smul_apply, smul_eq_mul]
    field_simp
  · next h =>
    rw [not_not] at h
    rw [h]
    simp
    rfl

theorem perp_eq (n v : V3) : perp n v = tangential n v := by
  funext c
  simp only [perp, tangential, dotProduct, Fin.sum_univ_three, Pi.sub_apply, Pi.smul_apply, smul_eq_mul]
  ring

theorem relative_eq (n a b : V3) :
    (fun c => perp n a c - 1 / 2 * (perp n a c + perp n b c)) = (1 / 2 : ℝ) • tangential n (a - b) := by
  rw [perp_eq, perp_eq]
  funext c
  simp only [tangential, dotProduct_sub, Pi.sub_apply, Pi.smul_apply, smul_eq_mul]
  ring

theorem relative_eq' (n a b : V3) :
    (fun c => perp n b c - 1 / 2 * (perp n a c + perp n b c)) = (1 / 2 : ℝ) • -tangential n (a - b) := by
  rw [perp_eq, perp_eq]
  funext c
  simp only [tangential, dotProduct_sub, Pi.sub_apply, Pi.smul_apply, smul_eq_mul, Pi.neg_apply]
  ring

theorem spring_eq {P : Params} {d t : ℝ} (hd : d < P.radius) (h : spring P d = .ok t) :
    t = strength P d := by
  rw [spring] at h
  split at h
  · cases h
  · split at h
    · cases h
    · next h1 h2 =>
      cases h
      rw [strength, if_pos hd]
      field_simp

theorem pairForces_eq {P : Params} {F : Fields} {i j : Nat} {g : V3 × V3}
    (hd : len (F.y j - F.y i) < P.radius) (hi : 0 ≤ F.vol i) (hj : 0 ≤ F.vol j)
    (h : pairForces P F i j = .ok g) :
    g = (F.vol j • law P F i j, -(F.vol i • law P F i j)) := by
  rw [pairForces] at h
  split at h
  · next t ht =>
    rw [distance_eq] at ht
    have hs := spring_eq hd ht
    split at h
    · cases h
    · next h0 =>
      rw [distance_eq] at h0
      have hne : F.y j - F.y i ≠ 0 := fun hc => h0 (by rw [hc]; exact len_eq_zero.2 rfl)
      simp only [distance_eq] at h
      have hn : (fun c => (F.y j c - F.y i c) / len (F.y j - F.y i)) = unit (F.y j - F.y i) := by
        funext c
        simp only [unit, Pi.smul_apply, Pi.sub_apply, smul_eq_mul]
        rw [div_eq_inv_mul]
      have h1 : (fun c => -(t * F.vol j * (F.y j c - F.y i c) / len (F.y j - F.y i))) =
          (-(t * F.vol j)) • unit (F.y j - F.y i) := by
        rw [← hn]
        funext c
        simp only [Pi.smul_apply, smul_eq_mul]
        ring
      have h2 : (fun c => t * F.vol i * (F.y j c - F.y i c) / len (F.y j - F.y i)) =
          (t * F.vol i) • unit (F.y j - F.y i) := by
        rw [← hn]
        funext c
        simp only [Pi.smul_apply, smul_eq_mul]
        ring
      have l1 : len ((-(t * F.vol j)) • unit (F.y j - F.y i)) = |t| * F.vol j := by
        rw [len_smul, len_unit hne, mul_one, abs_neg, abs_mul, abs_of_nonneg hj]
      have l2 : len ((t * F.vol i) • unit (F.y j - F.y i)) = |t| * F.vol i := by
        rw [len_smul, len_unit hne, mul_one, abs_mul, abs_of_nonneg hi]
      split at h
      · cases h
        rw [hn, relative_eq, relative_eq', frictionForce_eq, frictionForce_eq, h1, h2, l1, l2,
          unit_smul (by norm_num), unit_smul (by norm_num), unit_neg]
        unfold law
        rw [← hs]
        refine Prod.ext ?_ ?_
        · funext c
          have e1 := congrFun h1 c
          simp only [Pi.smul_apply, smul_eq_mul] at e1
          simp only [Pi.smul_apply, Pi.add_apply, smul_eq_mul, e1]
          ring
        · funext c
          have e2 := congrFun h2 c
          simp only [Pi.smul_apply, smul_eq_mul] at e2
          simp only [Pi.smul_apply, Pi.add_apply, Pi.neg_apply, smul_eq_mul, e2]
          ring
      · next hf =>
        rw [not_not] at hf
        cases h
        unfold law
        rw [h1, h2, ← hs, hf]
        refine Prod.ext ?_ ?_
        · funext c
          simp only [Pi.smul_apply, Pi.add_apply, smul_eq_mul]
          ring
        · funext c
          simp only [Pi.smul_apply, Pi.add_apply, Pi.neg_apply, smul_eq_mul]
          ring
  · cases h
  · cases h

theorem law_far {P : Params} {F : Fields} {i j : Nat} (h : ¬ len (F.y j - F.y i) < P.radius) :
    law P F i j = 0 := by
  unfold law strength
  rw [if_neg h]
  simp

/-- A pair as an entry for the scatter lemmas of Verif.Mech. -/
def asBond (x : Nat × Nat) : Bond := ⟨x.1, x.2, 0⟩

abbrev volI (F : Fields) : Bond → ℝ := fun b => F.vol b.i
abbrev volJ (F : Fields) : Bond → ℝ := fun b => F.vol b.j

theorem contactPair_eq {P : Params} {F : Fields} {i j : Nat} {f f' : Nat → V3} (hR : 0 ≤ P.radius)
    (hi : 0 ≤ F.vol i) (hj : 0 ≤ F.vol j) (h : contactPair P F i j f = .ok f') :
    f' = scatterStep (volI F) (volJ F) f (asBond (i, j)) (law P F i j) := by
  rw [contactPair] at h
  split at h
  · next hd =>
    rw [distance_lt _ _ hR] at hd
    split at h
    · next g hg =>
      cases h
      rw [pairForces_eq hd hi hj hg]
      unfold addPair scatterStep asBond
      simp only
      congr 1
      · congr 1
        funext c
        simp only [Pi.smul_apply, smul_eq_mul]
        ring
      · funext c
        have : (fun c => f i c + (F.vol j • law P F i j) c) = fun c => f i c + law P F i j c * F.vol j := by
          funext c
          simp only [Pi.smul_apply, smul_eq_mul]
          ring
        rw [this]
        simp only [Pi.neg_apply, Pi.smul_apply, smul_eq_mul]
        ring
    · cases h
    · cases h
  · next hd =>
    rw [distance_lt _ _ hR] at hd
    cases h
    rw [law_far hd]
    funext k
    rw [scatterStep_apply]
    simp [pull]

abbrev IsLaw (P : Params) (F : Fields) (b : Bond) (g : V3) : Prop := g = law P F b.i b.j

theorem neighborLoop_scattered {P : Params} {F : Fields} (hR : 0 ≤ P.radius) {i : Nat} (hi : 0 ≤ F.vol i)
    (pre : List Int) (ns : List Nat) (post : List Int) (pos : Nat) (f f' : Nat → V3)
    (hpos : pos = pre.length) (hv : ∀ j ∈ ns, 0 ≤ F.vol j)
    (h : neighborLoop P F i (pre ++ (ns.map (fun (n : Nat) => (n : Int)) ++ post)) ns.length pos f = .ok f') :
    Scattered (volI F) (volJ F) (IsLaw P F) ((ns.map fun j => (i, j)).map asBond) f f' := by
  induction ns generalizing pre pos f with
  | nil => cases h; exact Scattered.nil _ _ _ _
  | cons n ns ih =>
    rw [List.length_cons, neighborLoop] at h
    have hr : readAt (pre ++ ((n :: ns).map (fun (n : Nat) => (n : Int)) ++ post)) pos = .ok (n : Int) := by
      simpa using readAt_mid pre (n : Int) (ns.map (fun (n : Nat) => (n : Int)) ++ post) pos hpos
    rw [hr] at h
    simp only at h
    rw [if_neg (by omega), Int.toNat_natCast] at h
    split at h
    · next f1 h1 =>
      have h2 := ih (pre ++ [(n : Int)]) (pos + 1) f1 (by simp [hpos]) (fun j hj => hv j (List.mem_cons_of_mem _ hj))
        (by simpa using h)
      rw [contactPair_eq hR hi (hv n List.mem_cons_self) h1] at h2
      exact Scattered.cons rfl h2
    · cases h
    · cases h

theorem ownedLoop_scattered {P : Params} {F : Fields} (hR : 0 ≤ P.radius) (ids : List Nat)
    (nbs : List (List Nat)) (pre : List Int) (pos : Nat) (f f' : Nat → V3) (hlen : ids.length = nbs.length)
    (hpos : pos = pre.length) (hv : ∀ x ∈ pairs ids nbs, 0 ≤ F.vol x.1 ∧ 0 ≤ F.vol x.2)
    (h : ownedLoop P F (pre ++ listOf nbs) ids pos f = .ok f') :
    Scattered (volI F) (volJ F) (IsLaw P F) ((pairs ids nbs).map asBond) f f' := by
  induction ids generalizing nbs pre pos f with
  | nil => cases h; cases nbs with
    | nil => exact Scattered.nil _ _ _ _
    | cons _ _ => cases hlen
  | cons i ids ih =>
    cases nbs with
    | nil => cases hlen
    | cons ns nbs =>
      have hl : listOf (ns :: nbs) =
          ((ns.length : Nat) : Int) :: (ns.map (fun (n : Nat) => (n : Int)) ++ listOf nbs) := by
        simp [listOf]
      have hp : pairs (i :: ids) (ns :: nbs) = (ns.map fun j => (i, j)) ++ pairs ids nbs := by
        simp [pairs]
      rw [hp] at hv ⊢
      rw [hl, ownedLoop, readAt_mid pre _ _ pos hpos] at h
      simp only [Int.toNat_natCast] at h
      split at h
      · next f1 h1 =>
        rw [List.map_append]
        refine Scattered.append (R := f1) ?_ ?_
        · by_cases hns : ns = []
          · subst hns
            cases h1
            exact Scattered.nil _ _ _ _
          · obtain ⟨j, hj⟩ := List.exists_mem_of_ne_nil ns hns
            have hi := (hv (i, j) (List.mem_append_left _ (List.mem_map.2 ⟨j, hj, rfl⟩))).1
            exact neighborLoop_scattered hR hi (pre ++ [((ns.length : Nat) : Int)]) ns (listOf nbs) (pos + 1) f f1
              (by simp [hpos]) (fun j hj => (hv (i, j) (List.mem_append_left _ (List.mem_map.2 ⟨j, hj, rfl⟩))).2)
              (by simpa using h1)
        · exact ih nbs (pre ++ ((ns.length : Nat) : Int) :: ns.map (fun (n : Nat) => (n : Int)))
            (pos + 1 + ns.length) f1 (by simpa using hlen) (by simp [hpos]; omega) (fun x hx => hv x (List.mem_append_right _ hx))
            (by simpa using h)
      · cases h
      · cases h

theorem computeForce_scattered {P : Params} {F : Fields} (hR : 0 ≤ P.radius) {ids : List Nat}
    {nbs : List (List Nat)} {f : Nat → V3} (hlen : ids.length = nbs.length)
    (hv : ∀ x ∈ pairs ids nbs, 0 ≤ F.vol x.1 ∧ 0 ≤ F.vol x.2)
    (h : computeForce P F ids (listOf nbs) = .ok f) :
    Scattered (volI F) (volJ F) (IsLaw P F) ((pairs ids nbs).map asBond) 0 f :=
  ownedLoop_scattered hR ids nbs [] 0 _ f hlen rfl hv (by rw [List.nil_append]; exact h)

end Verif.Contact
