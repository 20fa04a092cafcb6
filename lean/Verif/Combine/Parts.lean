import Verif.Combine.Table
import Verif.Combine.Spec
import Mathlib.Tactic.Tauto

/-! Helper lemmas: the requests of every component are in the table that belongs to the analysis. -/

namespace Verif.Combine

open Verif.Field

/-- All requests of the calls are in the table, all look-ups are of fields of the program itself. -/
structure Good (h a j : Bool) (as : List Action) : Prop where
  listed : ∀ r ∈ requests as, Listed h a j r
  looks : LooksCore as

theorem Good.append {h a j : Bool} {as bs : List Action} (ha : Good h a j as) (hb : Good h a j bs) :
    Good h a j (as ++ bs) := by
  constructor
  · intro r hr
    rw [requests_append, List.mem_append] at hr
    exact hr.elim (ha.listed r) (hb.listed r)
  · intro l hl
    rw [looks_append, List.mem_append] at hl
    exact hl.elim (ha.looks l) (hb.looks l)

theorem good_nil (h a j : Bool) : Good h a j [] := by
  constructor
  · intro r hr; simp [requests] at hr
  · intro l hl; simp [Combine.looks] at hl

theorem Good.ite {h a j : Bool} {as : List Action} (ha : Good h a j as) (c : Bool) :
    Good h a j (if c then as else []) := by
  cases c
  · exact good_nil h a j
  · exact ha

theorem Good.flatMap {h a j : Bool} {α : Type} (xs : List α) (f : α → List Action)
    (hx : ∀ x ∈ xs, Good h a j (f x)) : Good h a j (xs.flatMap f) := by
  induction xs with
  | nil => exact good_nil h a j
  | cons x xs ih =>
    rw [List.flatMap_cons]
    exact (hx x List.mem_cons_self).append (ih fun y hy => hx y (List.mem_cons_of_mem _ hy))

/-- The `n`-th list without one of the four labels. -/
theorem plain (h a j : Bool) (n : Nat) (l : List Action) (hl : plainLists[n]? = some l) : Good h a j l := by
  have hm : (l, []) ∈ plainLists.map (fun l => (l, ([] : List Request))) ++ fourLists := by
    refine List.mem_append_left _ (List.mem_map.2 ⟨l, List.mem_of_getElem? hl, rfl⟩)
  exact ⟨fun r hr => (fits_all _ hm r hr).listed h a j (by simp), looks_all _ hm⟩

theorem four (h a j : Bool) (n : Nat) (l : List Action) (al : List Request) (hl : fourLists[n]? = some (l, al))
    (hal : ∀ q ∈ al, Listed h a j q) : Good h a j l := by
  have hm : (l, al) ∈ plainLists.map (fun l => (l, ([] : List Request))) ++ fourLists :=
    List.mem_append_right _ (List.mem_of_getElem? hl)
  exact ⟨fun r hr => (fits_all _ hm r hr).listed h a j hal, looks_all _ hm⟩

theorem hypo_listed : ∀ q ∈ hypoSet, Listed true false false q := by decide +kernel

theorem assoc_listed (j : Bool) : ∀ q ∈ [determinantBond, strainTwoStep], Listed false true j q := by
  cases j <;> decide +kernel

theorem gradient_listed (a j : Bool) : ∀ q ∈ [gradientConstant], Listed false a j q := by
  cases a <;> cases j <;> decide +kernel

theorem velocity_listed (a : Bool) : ∀ q ∈ [velocityTwoStep], Listed false a true q := by
  cases a <;> decide +kernel

theorem determinant_listed (h j : Bool) : ∀ q ∈ [determinantElement], Listed h false j q := by
  cases h <;> cases j <;> decide +kernel

theorem material_good (h a j : Bool) (m : Material) (h1 : IsHypoelastic m → h = true ∧ a = false ∧ j = false)
    (h2 : IsBondAssociated m → h = false ∧ a = true) (h3 : IsCorrespondence m → h = false) :
    Good h a j m.actions := by
  have hypo : IsHypoelastic m → ∀ q ∈ hypoSet, Listed h a j q := by
    intro hm; obtain ⟨rfl, rfl, rfl⟩ := h1 hm; exact hypo_listed
  have assoc : IsBondAssociated m → ∀ q ∈ [determinantBond, strainTwoStep], Listed h a j q := by
    intro hm; obtain ⟨rfl, rfl⟩ := h2 hm; exact assoc_listed j
  have corr : IsCorrespondence m → ∀ q ∈ [gradientConstant], Listed h a j q := by
    intro hm; obtain rfl := h3 hm; exact gradient_listed a j
  cases m with
  | elastic t p => exact ((plain h a j 6 _ rfl).append ((plain h a j 7 _ rfl).ite t)).append ((plain h a j 8 _ rfl).ite p)
  | multiphysicsElastic t => exact (plain h a j 9 _ rfl).append ((plain h a j 10 _ rfl).ite t)
  | elasticPlastic => exact plain h a j 11 _ rfl
  | elasticPlasticHardening => exact plain h a j 12 _ rfl
  | viscoelastic => exact plain h a j 13 _ rfl
  | elasticPlasticCorrespondence =>
    exact (four h a j 5 _ _ rfl (corr (by simp [IsCorrespondence]))).append (plain h a j 14 _ rfl)
  | elasticCorrespondence t =>
    exact ((four h a j 5 _ _ rfl (corr (by simp [IsCorrespondence]))).append (plain h a j 15 _ rfl)).append
      ((plain h a j 16 _ rfl).ite t)
  | needlemanCorrespondence =>
    exact (four h a j 5 _ _ rfl (corr (by simp [IsCorrespondence]))).append (plain h a j 17 _ rfl)
  | hardeningCorrespondence =>
    exact (four h a j 5 _ _ rfl (corr (by simp [IsCorrespondence]))).append (plain h a j 18 _ rfl)
  | elasticHypoelastic =>
    have := hypo (by simp [IsHypoelastic])
    exact (four h a j 0 _ _ rfl this).append (four h a j 1 _ _ rfl this)
  | elasticPlasticHypoelastic =>
    have := hypo (by simp [IsHypoelastic])
    exact (four h a j 0 _ _ rfl this).append (four h a j 2 _ _ rfl this)
  | hardeningHypoelastic =>
    have := hypo (by simp [IsHypoelastic])
    exact (four h a j 0 _ _ rfl this).append (four h a j 3 _ _ rfl this)
  | elasticAssociated =>
    exact (four h a j 4 _ _ rfl (assoc (by simp [IsBondAssociated]))).append (plain h a j 19 _ rfl)
  | elasticPlasticAssociated =>
    exact (four h a j 4 _ _ rfl (assoc (by simp [IsBondAssociated]))).append (plain h a j 20 _ rfl)
  | hardeningAssociated =>
    exact (four h a j 4 _ _ rfl (assoc (by simp [IsBondAssociated]))).append (plain h a j 21 _ rfl)
  | lcm => exact plain h a j 22 _ rfl
  | elasticBondBased => exact plain h a j 23 _ rfl
  | vectorPoisson => exact plain h a j 24 _ rfl
  | diffusion q => exact (plain h a j 25 _ rfl).append ((plain h a j 26 _ rfl).ite q)
  | pals => exact plain h a j 27 _ rfl
  | linearLps q => exact (plain h a j 28 _ rfl).append ((plain h a j 29 _ rfl).ite q)

theorem damage_good (h a j : Bool) (d : Damage) (h1 : IsStressDamage d → a = false) : Good h a j d.actions := by
  have stress : IsStressDamage d → ∀ q ∈ [determinantElement], Listed h a j q := by
    intro hm; obtain rfl := h1 hm; exact determinant_listed h j
  cases d with
  | criticalStretch t => exact (plain h a j 30 _ rfl).append ((plain h a j 31 _ rfl).ite t)
  | interfaceAware t => exact (plain h a j 32 _ rfl).append ((plain h a j 33 _ rfl).ite t)
  | timeDependentStretch t => exact (plain h a j 34 _ rfl).append ((plain h a j 35 _ rfl).ite t)
  | initialDamage => exact plain h a j 36 _ rfl
  | johnsonCook => exact four h a j 8 _ _ rfl (stress (by simp [IsStressDamage]))
  | vonMisesStress => exact four h a j 9 _ _ rfl (stress (by simp [IsStressDamage]))

theorem contact_good (h a j : Bool) (c : Option (List Contact)) : Good h a j (contactActions c) := by
  cases c with
  | none => exact good_nil h a j
  | some ms =>
    refine (plain h a j 3 _ rfl).append (Good.flatMap ms _ fun m _ => ?_)
    cases m
    · exact plain h a j 4 _ rfl
    · exact plain h a j 5 _ rfl

theorem compute_good (h a j : Bool) (c : Compute) (h1 : c = .deformationGradient → h = false)
    (h2 : c = .jIntegral → h = false ∧ j = true) : Good h a j c.actions := by
  cases c with
  | acceleration => exact plain h a j 37 _ rfl
  | bondVisualization => exact plain h a j 38 _ rfl
  | angularMomentum => exact plain h a j 39 _ rfl
  | linearMomentum => exact plain h a j 40 _ rfl
  | kineticEnergy => exact plain h a j 41 _ rfl
  | contactForce => exact plain h a j 42 _ rfl
  | force => exact plain h a j 43 _ rfl
  | radius => exact plain h a j 44 _ rfl
  | numberOfNeighbors => exact plain h a j 45 _ rfl
  | neighborhoodVolume => exact plain h a j 46 _ rfl
  | deformationGradient =>
    obtain rfl := h1 rfl
    exact four false a j 6 _ _ rfl (gradient_listed a j)
  | energyDensity => exact plain h a j 47 _ rfl
  | energy => exact plain h a j 48 _ rfl
  | iterations => exact plain h a j 49 _ rfl
  | obc => exact plain h a j 50 _ rfl
  | jIntegral =>
    obtain ⟨rfl, rfl⟩ := h2 rfl
    exact four false a true 7 _ _ rfl (velocity_listed a)

open Classical in
/-- Without a conflict all calls of the analysis fit one table. -/
theorem analysis_good (a : Analysis) (hc : ¬ a.Conflict) :
    ∃ h s j, Good h s j a.actions := by
  refine ⟨decide (a.HasMaterial IsHypoelastic), decide (a.HasMaterial IsBondAssociated),
    decide (Compute.jIntegral ∈ a.computes), ?_⟩
  unfold Analysis.Conflict at hc
  push Not at hc
  obtain ⟨hc1, hc2⟩ := hc
  refine ((((Good.append (Good.append (plain _ _ _ 0 _ rfl) ((plain _ _ _ 1 _ rfl).ite _)) (plain _ _ _ 2 _ rfl)).append
    (contact_good _ _ _ _))).append (Good.flatMap _ _ fun b hb => ?_)).append (Good.flatMap _ _ fun c hcm => ?_)
  · refine Good.append (material_good _ _ _ _ ?_ ?_ ?_) ?_
    · intro hm
      have hh : a.HasMaterial IsHypoelastic := ⟨b, hb, hm⟩
      have := hc1 hh
      simp [hh, this]
    · intro hm
      have hh : a.HasMaterial IsBondAssociated := ⟨b, hb, hm⟩
      simp only [hh, decide_true, and_true, decide_eq_false_iff_not]
      exact fun h => (hc1 h).1 hh
    · intro hm
      have hh : a.HasMaterial IsCorrespondence := ⟨b, hb, hm⟩
      simp only [decide_eq_false_iff_not]
      exact fun h => (hc1 h).2.1 hh
    · cases hd : b.2 with
      | none => exact good_nil _ _ _
      | some d =>
        refine damage_good _ _ _ d fun hs => ?_
        simp only [decide_eq_false_iff_not]
        exact fun h => hc2 h ⟨b, hb, d, hd, hs⟩
  · refine compute_good _ _ _ c ?_ ?_
    · rintro rfl
      simp only [decide_eq_false_iff_not]
      exact fun h => (hc1 h).2.2.1 hcm
    · rintro rfl
      simp only [decide_eq_false_iff_not, hcm, decide_true, and_true]
      exact fun h => (hc1 h).2.2.2 hcm

/-- The fields of the program itself come first. -/
theorem actions_core (a : Analysis) : ∃ c rest, a.actions = c ++ rest ∧
    (∀ l ∈ (requests (coreFirst ++ coreRest)).map Request.label, l ∈ (requests c).map Request.label) ∧ looks c = [] := by
  refine ⟨coreFirst ++ (if a.multiphysics then corePressure else []) ++ coreRest,
    contactActions a.contact ++ a.blocks.flatMap blockActions ++ a.computes.flatMap Compute.actions, ?_, ?_, ?_⟩
  · simp [Analysis.actions, List.append_assoc]
  · intro l hl
    rw [requests_append, List.map_append, List.mem_append] at hl
    rw [requests_append, requests_append, List.map_append, List.map_append, List.mem_append, List.mem_append]
    tauto
  · cases a.multiphysics <;> rfl

theorem construct_ok (a : Analysis) (hc : ¬ a.Conflict) : ∃ fm, construct a = .ok fm := by
  obtain ⟨h, s, j, hg⟩ := analysis_good a hc
  obtain ⟨c, rest, he, hcore, hlc⟩ := actions_core a
  have hcomp : ∀ x ∈ requests a.actions, ∀ y ∈ requests a.actions, SameUpToCase x.label y.label → x = y :=
    fun x hx y hy => (hg.listed x hx).compatible (hg.listed y hy)
  unfold construct
  rw [he, requests_append] at hcomp
  rw [he, perform_append]
  have hc1 : ∃ fm, perform FieldManager.empty c = .ok fm :=
    perform_ok rep_empty c (fun x hx y hy => hcomp x (by simpa using Or.inl (by simpa using hx)) y
      (by simpa using Or.inl (by simpa using hy))) (by rw [hlc]; simp)
  obtain ⟨f1, hf1⟩ := hc1
  rcases perform_cases rep_empty c with ⟨f1', d1, h1, r1, m1⟩ | hx
  · rw [hf1] at h1
    obtain rfl := Outcome.ok.inj h1
    rw [hf1]
    refine perform_ok r1 rest ?_ ?_
    · intro x hx y hy
      refine hcomp x ?_ y ?_
      · simpa [m1] using hx
      · simpa [m1] using hy
    · intro l hl
      have h1 := hg.looks l (by rw [he, looks_append]; exact List.mem_append_right _ hl)
      obtain ⟨r, hr, rfl⟩ := List.mem_map.1 (hcore l h1)
      exact List.mem_map.2 ⟨r, (m1 r).2 (Or.inr hr), rfl⟩
  · rw [hf1] at hx; cases hx

theorem mem_block {a : Analysis} {b : Material × Option Damage} (hb : b ∈ a.blocks) {r : Request}
    (hr : r ∈ requests (blockActions b)) : r ∈ requests a.actions := by
  unfold Analysis.actions
  rw [requests_append, requests_append, List.mem_append, List.mem_append]
  left; right
  simp only [requests, List.mem_filterMap, List.mem_flatMap] at hr ⊢
  obtain ⟨x, hx, h⟩ := hr
  exact ⟨x, ⟨b, hb, hx⟩, h⟩

theorem mem_material {a : Analysis} {b : Material × Option Damage} (hb : b ∈ a.blocks) {r : Request}
    (hr : r ∈ requests b.1.actions) : r ∈ requests a.actions :=
  mem_block hb (by unfold blockActions; rw [requests_append]; exact List.mem_append_left _ hr)

theorem mem_damage {a : Analysis} {b : Material × Option Damage} (hb : b ∈ a.blocks) {d : Damage} (hd : b.2 = some d)
    {r : Request} (hr : r ∈ requests d.actions) : r ∈ requests a.actions :=
  mem_block hb (by unfold blockActions; rw [requests_append, hd]; exact List.mem_append_right _ hr)

theorem mem_compute {a : Analysis} {c : Compute} (hc : c ∈ a.computes) {r : Request}
    (hr : r ∈ requests c.actions) : r ∈ requests a.actions := by
  unfold Analysis.actions
  rw [requests_append, List.mem_append]
  right
  simp only [requests, List.mem_filterMap, List.mem_flatMap] at hr ⊢
  obtain ⟨x, hx, h⟩ := hr
  exact ⟨x, ⟨c, hc, hx⟩, h⟩

theorem hypo_requests {m : Material} (hm : IsHypoelastic m) :
    gradientTwoStep ∈ requests m.actions ∧ strainConstant ∈ requests m.actions
      ∧ velocityConstant ∈ requests m.actions := by
  have key : gradientTwoStep ∈ requests hypoelasticBase ∧ strainConstant ∈ requests hypoelasticBase
      ∧ velocityConstant ∈ requests hypoelasticBase := by decide +kernel
  obtain ⟨k1, k2, k3⟩ := key
  rcases hm with rfl | rfl | rfl <;>
    simp only [Material.actions, requests_append, List.mem_append, k1, k2, k3, true_or, and_self]

theorem assoc_requests {m : Material} (hm : IsBondAssociated m) :
    determinantBond ∈ requests m.actions ∧ strainTwoStep ∈ requests m.actions := by
  have key : determinantBond ∈ requests associatedBase ∧ strainTwoStep ∈ requests associatedBase := by decide +kernel
  obtain ⟨k1, k2⟩ := key
  rcases hm with rfl | rfl | rfl <;>
    simp only [Material.actions, requests_append, List.mem_append, k1, k2, true_or, and_self]

theorem corr_requests {m : Material} (hm : IsCorrespondence m) : gradientConstant ∈ requests m.actions := by
  have key : gradientConstant ∈ requests correspondenceBase := by decide +kernel
  rcases hm with rfl | ⟨t, rfl⟩ | rfl | rfl <;>
    simp only [Material.actions, requests_append, List.mem_append, key, true_or]

theorem stress_requests {d : Damage} (hd : IsStressDamage d) : determinantElement ∈ requests d.actions := by
  rcases hd with rfl | rfl <;> decide +kernel

theorem construct_conflict (a : Analysis) (hc : a.Conflict) : construct a = .fail .terminate := by
  unfold construct
  rcases hc with ⟨⟨b, hb, hm⟩, h⟩ | ⟨⟨b, hb, hm⟩, b', hb', d, hd, hs⟩
  · obtain ⟨k1, k2, k3⟩ := hypo_requests hm
    rcases h with ⟨b', hb', hm'⟩ | ⟨b', hb', hm'⟩ | h | h
    · exact perform_conflict _ (mem_material hb k2) (mem_material hb' (assoc_requests hm').2) rfl (by decide)
    · exact perform_conflict _ (mem_material hb k1) (mem_material hb' (corr_requests hm')) rfl (by decide)
    · exact perform_conflict _ (mem_material hb k1)
        (mem_compute h (show gradientConstant ∈ requests computeDeformationGradient by decide +kernel)) rfl (by decide)
    · exact perform_conflict _ (mem_material hb k3)
        (mem_compute h (show velocityTwoStep ∈ requests computeJIntegral by decide +kernel)) rfl (by decide)
  · exact perform_conflict _ (mem_material hb (assoc_requests hm).1) (mem_damage hb' hd (stress_requests hs)) rfl
      (by decide)

end Verif.Combine
