import Verif.Mech.Defined

/-!
# Properties C17 and C18: internal forces conserve linear and angular momentum
-/

noncomputable section

namespace Verif.Mech

open Verif Verif.Neigh

/-! ### C17 -/

/-- C17 for the state-based elastic material: for every configuration, damage state, neighborhood
structure and temperature field for which forces are computed, they sum to zero. -/
theorem C17_elastic (C : Config) (K mu : ℝ) (nbs : List (List Nat)) (th theta : Nat → ℝ) (F : Nat → V3)
    (N : Nat) (hN : Within nbs N)
    (h : elasticMaterial C K mu nbs.length (encode nbs) th = .ok (theta, F)) :
    totalForce C.v F N = 0 :=
  force_of_scattered (elastic_scattered h) (bonds_within hN)

/-- C17 for the bond-based elastic material. -/
theorem C17_bondBased (C : Config) (K : ℝ) (planar : Option ℝ) (nbs : List (List Nat)) (F : Nat → V3)
    (N : Nat) (hN : Within nbs N)
    (h : bondBasedMaterial C K planar nbs.length (encode nbs) = .ok F) : totalForce C.v F N = 0 := by
  obtain ⟨c, _, hs⟩ := bondBased_scattered h
  exact force_of_scattered hs (bonds_within hN)

theorem within_flatMap {nbs : List (List Nat)} {N : Nat} (hN : Within nbs N) :
    ∀ b ∈ ((List.range nbs.length).flatMap fun p => (bondsOf nbs).filter fun b => b.i = p),
      b.i < N ∧ b.j < N := by
  intro b hb
  obtain ⟨p, _, hp⟩ := List.mem_flatMap.1 hb
  exact bonds_within hN b (List.mem_filter.1 hp).1

/-- C17 for the elastic-plastic material, whatever the plastic history. -/
theorem C17_plastic (C : Config) (P : PlasticConst) (nbs : List (List Nat))
    (th edpN lambdaN theta : Nat → ℝ) (s s' : PlasticState) (N : Nat) (hN : Within nbs N)
    (h : plasticMaterial C P nbs.length (encode nbs) th edpN lambdaN s = .ok (theta, s')) :
    totalForce C.v s'.F N = 0 :=
  force_of_scattered (plastic_scattered h) (within_flatMap hN)

/-- C17 for the viscoelastic material, whatever the history. -/
theorem C17_visco (C : Config) (P : ViscoConst) (dt : ℝ) (yN : Nat → V3)
    (thetaN edbN th edb theta edb' : Nat → ℝ) (nbs : List (List Nat)) (F : Nat → V3) (N : Nat)
    (hN : Within nbs N)
    (h : viscoMaterial C P dt yN thetaN edbN nbs.length (encode nbs) th edb = .ok (theta, edb', F)) :
    totalForce C.v F N = 0 :=
  force_of_scattered (visco_scattered h) (bonds_within hN)

/-! ### C18 -/

/-- C18 for the state-based elastic material. -/
theorem C18_elastic (C : Config) (K mu : ℝ) (nbs : List (List Nat)) (th theta : Nat → ℝ) (F : Nat → V3)
    (N : Nat) (hN : Within nbs N)
    (h : elasticMaterial C K mu nbs.length (encode nbs) th = .ok (theta, F)) :
    totalMoment C.y C.v F N = 0 :=
  moment_of_scattered ((elastic_scattered h).mono fun _ _ _ hg => elasticBond_central hg)
    (bonds_within hN)

/-- C18 for the bond-based elastic material. -/
theorem C18_bondBased (C : Config) (K : ℝ) (planar : Option ℝ) (nbs : List (List Nat)) (F : Nat → V3)
    (N : Nat) (hN : Within nbs N)
    (h : bondBasedMaterial C K planar nbs.length (encode nbs) = .ok F) :
    totalMoment C.y C.v F N = 0 := by
  obtain ⟨c, _, hs⟩ := bondBased_scattered h
  exact moment_of_scattered (hs.mono fun _ _ _ hg => bondBasedBond_central hg) (bonds_within hN)

/-- C18 for the elastic-plastic material. -/
theorem C18_plastic (C : Config) (P : PlasticConst) (nbs : List (List Nat))
    (th edpN lambdaN theta : Nat → ℝ) (s s' : PlasticState) (N : Nat) (hN : Within nbs N)
    (h : plasticMaterial C P nbs.length (encode nbs) th edpN lambdaN s = .ok (theta, s')) :
    totalMoment C.y C.v s'.F N = 0 :=
  moment_of_scattered (plastic_scattered h) (within_flatMap hN)

/-- C18 for the viscoelastic material. -/
theorem C18_visco (C : Config) (P : ViscoConst) (dt : ℝ) (yN : Nat → V3)
    (thetaN edbN th edb theta edb' : Nat → ℝ) (nbs : List (List Nat)) (F : Nat → V3) (N : Nat)
    (hN : Within nbs N)
    (h : viscoMaterial C P dt yN thetaN edbN nbs.length (encode nbs) th edb = .ok (theta, edb', F)) :
    totalMoment C.y C.v F N = 0 :=
  moment_of_scattered (visco_scattered h) (bonds_within hN)

/-! ### A case -/

/-- Three points, not in equilibrium: point 1 is bonded to 0 and 2, and the body is stretched. -/
def demo : Config where
  x := fun k => ![k, 0, 0]
  y := fun k => ![2 * k, k * k, 0]
  v := fun k => k + 1
  m := fun _ => 5
  damage := fun b => if b = 1 then 1 else 0
  omega := fun _ _ => 1
  horizon := 2
  thermal := none

/-- Neighborhoods of the case. -/
def demoNbs : List (List Nat) := [[1], [0, 2], [1]]

theorem demo_proper : Proper demo demoNbs := by
  intro p j ⟨ns, hp, hj⟩
  have key : ∀ (a c : Nat), (a : ℝ) ≠ c → demo.m c ≠ 0 ∧ demo.y a ≠ demo.y c ∧ demo.x a ≠ demo.x c := by
    intro a c hac
    refine ⟨by norm_num [demo], ?_, ?_⟩
    · intro h
      have := congrFun h 0
      simp [demo] at this
      exact hac (by exact_mod_cast this)
    · intro h
      have := congrFun h 0
      simp [demo] at this
      exact hac (by exact_mod_cast this)
  match p, hp with
  | 0, hp => cases hp; simp at hj; subst hj; exact key _ _ (by norm_num)
  | 1, hp =>
    cases hp; simp at hj
    rcases hj with rfl | rfl
    · exact key _ _ (by norm_num)
    · exact key _ _ (by norm_num)
  | 2, hp => cases hp; simp at hj; subst hj; exact key _ _ (by norm_num)
  | n + 3, hp => simp [demoNbs] at hp

theorem demo_within : Within demoNbs 3 := by
  constructor
  · decide
  · decide

example : ∃ theta F, elasticMaterial demo 1 1 demoNbs.length (encode demoNbs) 0 = .ok (theta, F) :=
  elastic_defined demo_proper 1 1 0

example : ∃ F, bondBasedMaterial demo 1 none demoNbs.length (encode demoNbs) = .ok F :=
  bondBased_defined demo_proper 1 (by norm_num [demo])

example : ∃ theta s', plasticMaterial demo ⟨1, 1, 1, none⟩ demoNbs.length (encode demoNbs) 0 0 0
    ⟨0, 0, 0⟩ = .ok (theta, s') :=
  plastic_defined demo_proper (by intro p _; norm_num [demo]) (by norm_num [demo]) (by norm_num)
    (by norm_num) rfl _ _ _ _

example : ∃ theta edb' F, viscoMaterial demo ⟨1, 1, 1 / 2, 3⟩ 1 demo.x 0 0 demoNbs.length
    (encode demoNbs) 0 0 = .ok (theta, edb', F) :=
  visco_defined demo_proper (by norm_num) (by norm_num) _ _ _ _ _

end Verif.Mech
