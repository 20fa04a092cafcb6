import Verif.Mech.Lemmas

/-! The kernels with history variables scatter central pair forces, too. -/

noncomputable section

namespace Verif.Mech

open Verif Verif.Neigh

theorem plasticInner_scattered {C : Config} {P : PlasticConst} {yv : ℝ} {theta edpN : Nat → ℝ}
    {fl : Flow} {bs : List Bond} {s s' : PlasticState}
    (h : plasticInner C P yv theta edpN fl bs s = .ok s') :
    Scattered (selfVol C) (nbrVol C) (Central C) bs s.F s'.F := by
  induction bs generalizing s with
  | nil => simp only [plasticInner] at h; cases h; exact Scattered.nil _ _ _ _
  | cons b bs ih =>
    rw [plasticInner] at h
    cases hu : plasticUpdate C P yv theta edpN fl b with
    | ok u =>
      obtain ⟨td, edp'⟩ := u
      rw [hu] at h
      simp only at h
      cases hb : plasticBond C P theta td b with
      | ok f =>
        rw [hb] at h
        exact Scattered.cons (along_central hb) (ih h)
      | fail e => rw [hb] at h; cases h
      | ub => rw [hb] at h; cases h
    | fail e => rw [hu] at h; cases h
    | ub => rw [hu] at h; cases h

theorem plasticPoints_scattered {C : Config} {P : PlasticConst} {yv : ℝ} {theta edpN lambdaN : Nat → ℝ}
    {bonds : List Bond} {ps : List Nat} {s s' : PlasticState}
    (h : plasticPoints C P yv theta edpN lambdaN bonds ps s = .ok s') :
    Scattered (selfVol C) (nbrVol C) (Central C)
      (ps.flatMap fun p => bonds.filter fun b => b.i = p) s.F s'.F := by
  induction ps generalizing s with
  | nil => simp only [plasticPoints] at h; cases h; exact Scattered.nil _ _ _ _
  | cons p ps ih =>
    rw [plasticPoints] at h
    cases hf : plasticFlow C P yv theta edpN p (bonds.filter fun b => b.i = p) with
    | ok fl =>
      rw [hf] at h
      simp only at h
      split at h
      · next s1 hs1 =>
        rw [List.flatMap_cons]
        exact (plasticInner_scattered hs1).append (ih h)
      · cases h
      · cases h
    | fail e => rw [hf] at h; cases h
    | ub => rw [hf] at h; cases h

theorem viscoLoop_scattered {C : Config} {P : ViscoConst} {decay beta : ℝ} {yN : Nat → V3}
    {thetaN theta edbN : Nat → ℝ} {bs : List Bond} {s s' : (Nat → ℝ) × (Nat → V3)}
    (h : viscoLoop C P decay beta yN thetaN theta edbN bs s = .ok s') :
    Scattered (selfVol C) (nbrVol C) (Central C) bs s.2 s'.2 := by
  induction bs generalizing s with
  | nil => simp only [viscoLoop] at h; cases h; exact Scattered.nil _ _ _ _
  | cons b bs ih =>
    rw [viscoLoop] at h
    split at h
    · next f hf =>
      refine Scattered.cons ?_ (ih h)
      unfold viscoBond at hf
      split at hf
      · cases hf
      · exact along_central hf
    · cases h
    · cases h

/-! ### What each material returns -/

theorem elastic_scattered {C : Config} {K mu : ℝ} {nbs : List (List Nat)} {th theta : Nat → ℝ}
    {F : Nat → V3} (h : elasticMaterial C K mu nbs.length (encode nbs) th = .ok (theta, F)) :
    Scattered (selfVol C) (nbrVol C) (fun b g => elasticBond C K mu theta b = .ok g) (bondsOf nbs) 0 F := by
  unfold elasticMaterial at h
  cases hd : dilatation C nbs.length (encode nbs) th with
  | ok t =>
    rw [hd] at h
    simp only at h
    cases he : elasticForce C K mu t nbs.length (encode nbs) 0 with
    | ok G =>
      rw [he] at h
      cases h
      exact kernel_scattered he
    | fail e => rw [he] at h; cases h
    | ub => rw [he] at h; cases h
  | fail e => rw [hd] at h; cases h
  | ub => rw [hd] at h; cases h

theorem elasticBond_central {C : Config} {K mu : ℝ} {theta : Nat → ℝ} {b : Bond} {g : V3}
    (h : elasticBond C K mu theta b = .ok g) : Central C b g := by
  unfold elasticBond at h
  split at h
  · cases h
  · exact along_central h

theorem bondBasedBond_central {C : Config} {c : ℝ} {b : Bond} {g : V3}
    (h : bondBasedBond C c b = .ok g) : Central C b g := by
  unfold bondBasedBond at h
  split at h
  · cases h
  · exact along_central h

theorem bondBased_scattered {C : Config} {K : ℝ} {planar : Option ℝ} {nbs : List (List Nat)}
    {F : Nat → V3} (h : bondBasedMaterial C K planar nbs.length (encode nbs) = .ok F) :
    ∃ c, bondConstant K C.horizon planar = .ok c ∧
      Scattered (selfVol C) (nbrVol C) (fun b g => bondBasedBond C c b = .ok g) (bondsOf nbs) 0 F := by
  unfold bondBasedMaterial at h
  cases hc : bondConstant K C.horizon planar with
  | ok c => rw [hc] at h; exact ⟨c, rfl, kernel_scattered h⟩
  | fail e => rw [hc] at h; cases h
  | ub => rw [hc] at h; cases h

theorem plastic_scattered {C : Config} {P : PlasticConst} {nbs : List (List Nat)}
    {th edpN lambdaN theta : Nat → ℝ} {s s' : PlasticState}
    (h : plasticMaterial C P nbs.length (encode nbs) th edpN lambdaN s = .ok (theta, s')) :
    Scattered (selfVol C) (nbrVol C) (Central C)
      ((List.range nbs.length).flatMap fun p => (bondsOf nbs).filter fun b => b.i = p) 0 s'.F := by
  unfold plasticMaterial at h
  split at h
  · next t hd =>
    split at h
    · next s1 hp =>
      cases h
      unfold plasticForce at hp
      rw [visited_encode] at hp
      split at hp
      · exact plasticPoints_scattered hp
      · cases hp
      · cases hp
    · cases h
    · cases h
  · cases h
  · cases h

theorem visco_scattered {C : Config} {P : ViscoConst} {dt : ℝ} {yN : Nat → V3}
    {thetaN edbN th edb theta edb' : Nat → ℝ} {nbs : List (List Nat)} {F : Nat → V3}
    (h : viscoMaterial C P dt yN thetaN edbN nbs.length (encode nbs) th edb = .ok (theta, edb', F)) :
    Scattered (selfVol C) (nbrVol C) (Central C) (bondsOf nbs) 0 F := by
  unfold viscoMaterial at h
  split at h
  · next t hd =>
    split at h
    · next s1 hp =>
      cases h
      unfold viscoForce at hp
      rw [visited_encode] at hp
      split at hp
      · exact viscoLoop_scattered hp
      · cases hp
      · cases hp
    · cases h
    · cases h
  · cases h
  · cases h

end Verif.Mech
