import Verif.Return.ReturnLemmas
import Verif.Mech.Plastic
import Verif.BC.Lemmas

/-! The loops over points and bonds, and rotated steps. -/

noncomputable section

namespace Verif.Return

open Verif Verif.Neigh Verif.Mech Verif.Tensor Verif.Correspondence Matrix
open scoped Classical

/-- What the loop leaves at an index it visits. -/
structure Visited (early : Bool) (P : Const) (dt : ℝ) (D : Nat → M9) (old new f : Fields) (p : Nat)
    (o : PlasticOut) : Prop where
  ret : radialReturn P dt (D p) (old.stress p) (old.eqps p) = .ok o
  stress : f.stress p = o.stress
  mises : f.mises p = o.mises
  eqps : f.eqps p = o.eqps
  triaxiality : f.triaxiality p = triaxialityOf (if early then new.stress p else o.stress) o.mises

theorem updateAll_spec {early : Bool} {P : Const} {dt : ℝ} {D : Nat → M9} {old : Fields} :
    ∀ {l : List Nat} {new f : Fields}, l.Nodup → updateAll early P dt D old new l = .ok f →
      (∀ p ∈ l, ∃ o, Visited early P dt D old new f p o) ∧
      ∀ p, p ∉ l → f.stress p = new.stress p ∧ f.mises p = new.mises p ∧ f.eqps p = new.eqps p ∧
        f.triaxiality p = new.triaxiality p := by
  intro l
  induction l with
  | nil =>
    intro new f _ h
    cases h
    exact ⟨fun p hp => absurd hp (by simp), fun p _ => ⟨rfl, rfl, rfl, rfl⟩⟩
  | cons q l ih =>
    intro new f hn h
    obtain ⟨hq, hn⟩ := List.nodup_cons.mp hn
    unfold updateAll at h
    obtain ⟨f1, h1, h2⟩ := BC.foldlM_cons_ok.mp h
    obtain ⟨o, ho, h1⟩ := Outcome.bind_eq_ok.mp h1
    cases h1
    obtain ⟨ih1, ih2⟩ := ih hn h2
    constructor
    · intro p hp
      rcases List.mem_cons.mp hp with rfl | hp
      · obtain ⟨e1, e2, e3, e4⟩ := ih2 p hq
        refine ⟨o, ho, e1.trans ?_, e2.trans ?_, e3.trans ?_, e4.trans ?_⟩ <;> simp [Fields.put]
      · obtain ⟨o', ho'⟩ := ih1 p hp
        have hne : p ≠ q := fun e => hq (e ▸ hp)
        refine ⟨o', ho'.ret, ho'.stress, ho'.mises, ho'.eqps, ?_⟩
        rw [ho'.triaxiality]
        simp [Fields.put, hne]
    · intro p hp
      rw [List.mem_cons, not_or] at hp
      obtain ⟨e1, e2, e3, e4⟩ := ih2 p hp.2
      refine ⟨e1.trans ?_, e2.trans ?_, e3.trans ?_, e4.trans ?_⟩ <;> simp [Fields.put, hp.1]

theorem updateAll_ok {early : Bool} {P : Const} {dt : ℝ} {D : Nat → M9} {old : Fields} :
    ∀ {l : List Nat} {new : Fields},
      (∀ p ∈ l, ∃ o, radialReturn P dt (D p) (old.stress p) (old.eqps p) = .ok o) →
      ∃ f, updateAll early P dt D old new l = .ok f := by
  intro l
  induction l with
  | nil => exact fun _ => ⟨_, rfl⟩
  | cons q l ih =>
    intro new h
    obtain ⟨o, ho⟩ := h q (List.mem_cons_self ..)
    obtain ⟨f, hf⟩ := ih (new := new.put early q o) (fun p hp => h p (List.mem_cons_of_mem _ hp))
    refine ⟨f, ?_⟩
    unfold updateAll
    exact BC.foldlM_cons_ok.mpr ⟨_, by rw [ho]; rfl, hf⟩

/-- Number of bonds. -/
def bondCount (nbs : List (List Nat)) : Nat := (nbs.map List.length).sum

theorem compute_parts {P : Const} {dt : ℝ} {nodeRate bondRate : Nat → M9} {nbs : List (List Nat)}
    {old new r : MatState}
    (h : computeCauchyStress P dt nodeRate bondRate nbs.length (encode nbs) old new = .ok r) :
    updateAll false P dt nodeRate old.nodes new.nodes (List.range nbs.length) = .ok r.nodes ∧
    updateAll P.rule.isSaturation P dt bondRate old.bonds new.bonds ((bondsOf nbs).map (·.b)) = .ok r.bonds := by
  unfold computeCauchyStress at h
  obtain ⟨a, h1, h⟩ := Outcome.bind_eq_ok.mp h
  rw [visited_encode, Outcome.ok_bind] at h
  obtain ⟨b, h2, h⟩ := Outcome.bind_eq_ok.mp h
  cases h
  exact ⟨h1, h2⟩

/-! ### Rotated steps -/

/-- The numbers that the iteration produces do not depend on the stress it carries along. -/
theorem iterate_scalars {P : Const} {vm : ℝ} {flow flow' : M9} : ∀ (n : Nat) {s s' r : Iterate},
    s'.plastic = s.plastic → s'.eqps = s.eqps → s'.value = s.value → iterate P vm flow n s = .ok r →
    ∃ r', iterate P vm flow' n s' = .ok r' ∧ r'.plastic = r.plastic ∧ r'.eqps = r.eqps := by
  intro n
  induction n with
  | zero =>
    intro s s' r h1 h2 h3 h
    rcases le_or_gt |s.value| (tol P) with hv | hv
    · rw [iterate_done hv] at h
      cases h
      exact ⟨s', iterate_done (h3 ▸ hv), h1, h2⟩
    · rw [iterate_zero hv] at h
      cases h
  | succ n ih =>
    intro s s' r h1 h2 h3 h
    rcases le_or_gt |s.value| (tol P) with hv | hv
    · rw [iterate_done hv] at h
      cases h
      exact ⟨s', iterate_done (h3 ▸ hv), h1, h2⟩
    · rw [iterate_succ hv] at h
      rw [iterate_succ (h3 ▸ hv)]
      obtain ⟨s1, hs1, h⟩ := Outcome.bind_eq_ok.mp h
      unfold newton at hs1
      obtain ⟨m, hm, hs1⟩ := Outcome.bind_eq_ok.mp hs1
      split at hs1
      · cases hs1
      · rename_i hne
        obtain ⟨y, hy, hs1⟩ := Outcome.bind_eq_ok.mp hs1
        cases hs1
        have e : newton P vm flow' s' = .ok
            { plastic := s.plastic + s.value / (3 * P.shear + m)
              eqps := s.eqps + s.value / (3 * P.shear + m)
              stress := addScaled s'.stress (-(Real.sqrt 6 * P.shear * (s.value / (3 * P.shear + m)))) flow'
              value := vm - 3 * P.shear * (s.plastic + s.value / (3 * P.shear + m)) - y } := by
          unfold newton
          rw [h1, h2, h3, hm]
          simp only [Outcome.ok_bind]
          rw [if_neg hne, hy]
          rfl
        rw [e, Outcome.ok_bind]
        refine ih ?_ ?_ ?_ h <;> rfl

theorem trace_conj {Q : Mat} (hQ : Qᵀ * Q = 1) (a : Mat) : (Q * a * Qᵀ).trace = a.trace := by
  rw [Matrix.trace_mul_comm, ← Matrix.mul_assoc, hQ, Matrix.one_mul]

theorem mean_conj {Q : Mat} (hQ : Qᵀ * Q = 1) (a : Mat) : mean (Q * a * Qᵀ) = mean a := by
  unfold mean
  rw [trace_conj hQ]

theorem dev_conj {Q : Mat} (hQ : Qᵀ * Q = 1) (a : Mat) : dev (Q * a * Qᵀ) = Q * dev a * Qᵀ := by
  have hQ' : Q * Qᵀ = 1 := mul_eq_one_comm.mp hQ
  unfold dev
  rw [mean_conj hQ, Matrix.mul_sub, Matrix.sub_mul, Matrix.mul_smul, Matrix.smul_mul, Matrix.mul_one, hQ']

theorem ip_trace (a b : Mat) : ip a b = (aᵀ * b).trace := by
  simp only [ip, Matrix.trace, Matrix.diag, Matrix.mul_apply, Matrix.transpose_apply]
  exact Finset.sum_comm

theorem ip_conj {Q : Mat} (hQ : Qᵀ * Q = 1) (a b : Mat) : ip (Q * a * Qᵀ) (Q * b * Qᵀ) = ip a b := by
  rw [ip_trace, ip_trace, transpose_mul, transpose_mul, transpose_transpose]
  have e : Q * (aᵀ * Qᵀ) * (Q * b * Qᵀ) = Q * (aᵀ * b) * Qᵀ := by
    calc Q * (aᵀ * Qᵀ) * (Q * b * Qᵀ) = Q * aᵀ * (Qᵀ * Q) * b * Qᵀ := by simp only [Matrix.mul_assoc]
      _ = _ := by rw [hQ, Matrix.mul_one]; simp only [Matrix.mul_assoc]
  rw [e, trace_conj hQ]

theorem norm_conj {Q : Mat} (hQ : Qᵀ * Q = 1) (a : Mat) : norm9 (Q * a * Qᵀ) = norm9 a := by
  unfold norm9
  rw [ip_conj hQ]

theorem vonMises_conj {Q : Mat} (hQ : Qᵀ * Q = 1) (a : Mat) : vonMises (Q * a * Qᵀ) = vonMises a := by
  unfold vonMises
  rw [dev_conj hQ, norm_conj hQ]

theorem elastic_conj {Q : Mat} (hQ : Qᵀ * Q = 1) (P : Const) (dt : ℝ) {D D' sigma sigma' : M9}
    (hD : D'.toMatrix = Q * D.toMatrix * Qᵀ) (hs : sigma'.toMatrix = Q * sigma.toMatrix * Qᵀ) :
    elastic P dt D' sigma' = Q * elastic P dt D sigma * Qᵀ := by
  have hQ' : Q * Qᵀ = 1 := mul_eq_one_comm.mp hQ
  unfold elastic hooke
  rw [hD, hs]
  have e : dt • (Q * D.toMatrix * Qᵀ) = Q * (dt • D.toMatrix) * Qᵀ := by
    rw [Matrix.mul_smul, Matrix.smul_mul]
  rw [e, trace_conj hQ]
  simp only [Matrix.mul_add, Matrix.add_mul, Matrix.mul_smul, Matrix.smul_mul, Matrix.mul_one, hQ']

end Verif.Return
