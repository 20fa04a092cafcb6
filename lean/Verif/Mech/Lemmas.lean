import Verif.Mech.Spec
import Verif.Neigh.Lemmas
import Mathlib.Tactic.Common
import Mathlib.Tactic.Ring
import Mathlib.Tactic.Module
import Mathlib.Tactic.Linarith

/-! Lemmas for C17 to C24: closed forms of the scatter loops. -/

noncomputable section

namespace Verif.Mech

open Verif Verif.Neigh

/-- The bonds visited for the neighborhoods `nbs`. -/
abbrev bondsOf (nbs : List (List Nat)) : List Bond := bondsFrom nbs 0 0

theorem visited_encode (nbs : List (List Nat)) :
    visitedBonds nbs.length (encode nbs) = .ok (bondsOf nbs) := by
  have := outerLoop_mid nbs [] [] 0 0 0 nbs.length rfl rfl
  simpa [visitedBonds] using this

theorem mem_bondsOf {nbs : List (List Nat)} {b : Bond} (h : b ∈ bondsOf nbs) :
    HasBond nbs b.i b.j := by
  have h1 : (b.i, b.j) ∈ (bondsOf nbs).map (fun x => (x.i, x.j)) := List.mem_map.2 ⟨b, h, rfl⟩
  rw [bondsFrom_pairs] at h1
  obtain ⟨⟨ns, p⟩, h2, h3⟩ := List.mem_flatMap.1 h1
  obtain ⟨j, hj, he⟩ := List.mem_map.1 h3
  cases he
  exact ⟨ns, by simpa using List.mk_mem_zipIdx_iff_getElem?.1 h2, hj⟩

theorem bond_of_has {nbs : List (List Nat)} {p j : Nat} (h : HasBond nbs p j) :
    ∃ b ∈ bondsOf nbs, b.i = p ∧ b.j = j := by
  obtain ⟨ns, hp, hj⟩ := h
  have : (p, j) ∈ (bondsOf nbs).map (fun x => (x.i, x.j)) := by
    rw [bondsFrom_pairs]
    exact List.mem_flatMap.2 ⟨(ns, p), List.mk_mem_zipIdx_iff_getElem?.2 (by simpa using hp),
      List.mem_map.2 ⟨j, hj, rfl⟩⟩
  obtain ⟨b, hb, he⟩ := List.mem_map.1 this
  cases he
  exact ⟨b, hb, rfl, rfl⟩

theorem bonds_within {nbs : List (List Nat)} {N : Nat} (h : Within nbs N) :
    ∀ b ∈ bondsOf nbs, b.i < N ∧ b.j < N := by
  intro b hb
  obtain ⟨ns, hp, hj⟩ := mem_bondsOf hb
  obtain ⟨hlt, _⟩ := List.getElem?_eq_some_iff.1 hp
  exact ⟨Nat.lt_of_lt_of_le hlt h.1, h.2 ns (List.mem_of_getElem? hp) _ hj⟩

/-- What the pair force `g` of bond `b` adds at point `k`. -/
def pull (vi vj : Bond → ℝ) (k : Nat) (x : Bond × V3) : V3 :=
  (if x.1.i = k then vj x.1 • x.2 else 0) - (if x.1.j = k then vi x.1 • x.2 else 0)

theorem scatterStep_apply (vi vj : Bond → ℝ) (F : Nat → V3) (b : Bond) (g : V3) (k : Nat) :
    scatterStep vi vj F b g k = F k + pull vi vj k (b, g) := by
  unfold scatterStep pull
  funext c
  simp only [Function.update_apply, Pi.add_apply, Pi.sub_apply]
  by_cases h1 : b.i = k <;> by_cases h2 : b.j = k
  · subst h1
    simp [h2, mul_comm]; ring
  · subst h1
    have : ¬ b.i = b.j := fun h => h2 h.symm
    simp [h2, this, mul_comm]
  · subst h2
    have : ¬ b.j = b.i := fun h => h1 h.symm
    simp [h1, this, mul_comm]; ring
  · have h1' : ¬ k = b.i := fun h => h1 h.symm
    have h2' : ¬ k = b.j := fun h => h2 h.symm
    simp [h1, h2, h1', h2']

/-- `R` is `F` plus the pair forces of the bonds `bs`, each satisfying `P`. -/
def Scattered (vi vj : Bond → ℝ) (P : Bond → V3 → Prop) (bs : List Bond) (F R : Nat → V3) : Prop :=
  ∃ gs : List (Bond × V3), gs.map Prod.fst = bs ∧ (∀ x ∈ gs, P x.1 x.2) ∧
    ∀ k, R k = F k + (gs.map (pull vi vj k)).sum

theorem Scattered.nil (vi vj : Bond → ℝ) (P : Bond → V3 → Prop) (F : Nat → V3) :
    Scattered vi vj P [] F F := ⟨[], rfl, by simp, by simp⟩

theorem Scattered.cons {vi vj : Bond → ℝ} {P : Bond → V3 → Prop} {bs : List Bond} {F R : Nat → V3}
    {b : Bond} {g : V3} (hg : P b g) (h : Scattered vi vj P bs (scatterStep vi vj F b g) R) :
    Scattered vi vj P (b :: bs) F R := by
  obtain ⟨gs, h1, h2, h3⟩ := h
  refine ⟨(b, g) :: gs, by simp [h1], ?_, ?_⟩
  · intro x hx
    rcases List.mem_cons.1 hx with rfl | hx
    · exact hg
    · exact h2 x hx
  · intro k
    rw [h3 k, scatterStep_apply, List.map_cons, List.sum_cons, add_assoc]

theorem Scattered.append {vi vj : Bond → ℝ} {P : Bond → V3 → Prop} {bs cs : List Bond}
    {F R S : Nat → V3} (h : Scattered vi vj P bs F R) (h' : Scattered vi vj P cs R S) :
    Scattered vi vj P (bs ++ cs) F S := by
  obtain ⟨gs, h1, h2, h3⟩ := h
  obtain ⟨gs', h1', h2', h3'⟩ := h'
  refine ⟨gs ++ gs', by simp [h1, h1'], ?_, ?_⟩
  · intro x hx
    rcases List.mem_append.1 hx with hx | hx
    · exact h2 x hx
    · exact h2' x hx
  · intro k
    rw [h3' k, h3 k, List.map_append, List.sum_append, add_assoc]

theorem Scattered.mono {vi vj : Bond → ℝ} {P Q : Bond → V3 → Prop} {bs : List Bond} {F R : Nat → V3}
    (h : Scattered vi vj P bs F R) (hPQ : ∀ b ∈ bs, ∀ g, P b g → Q b g) : Scattered vi vj Q bs F R := by
  obtain ⟨gs, h1, h2, h3⟩ := h
  refine ⟨gs, h1, fun x hx => hPQ _ ?_ _ (h2 x hx), h3⟩
  rw [← h1]; exact List.mem_map.2 ⟨x, hx, rfl⟩

theorem scatter_scattered {vi vj : Bond → ℝ} {f : Bond → Outcome V3} {bs : List Bond} {F R : Nat → V3}
    (h : scatter vi vj f bs F = .ok R) : Scattered vi vj (fun b g => f b = .ok g) bs F R := by
  induction bs generalizing F with
  | nil => simp only [scatter] at h; cases h; exact Scattered.nil _ _ _ _
  | cons b bs ih =>
    rw [scatter] at h
    cases hf : f b with
    | ok g => rw [hf] at h; exact Scattered.cons hf (ih h)
    | fail e => rw [hf] at h; cases h
    | ub => rw [hf] at h; cases h

theorem scatter_ok {vi vj : Bond → ℝ} {f : Bond → Outcome V3} {bs : List Bond} (F : Nat → V3)
    (h : ∀ b ∈ bs, ∃ g, f b = .ok g) : ∃ R, scatter vi vj f bs F = .ok R := by
  induction bs generalizing F with
  | nil => exact ⟨F, rfl⟩
  | cons b bs ih =>
    obtain ⟨g, hg⟩ := h b List.mem_cons_self
    rw [scatter, hg]
    exact ih _ fun b' hb' => h b' (List.mem_cons_of_mem _ hb')

theorem kernel_scattered {vi vj : Bond → ℝ} {f : Bond → Outcome V3} {nbs : List (List Nat)}
    {F R : Nat → V3} (h : kernel vi vj f nbs.length (encode nbs) F = .ok R) :
    Scattered vi vj (fun b g => f b = .ok g) (bondsOf nbs) F R := by
  rw [kernel, visited_encode] at h
  exact scatter_scattered h

/-- A linear functional of the forces, summed over the points. -/
theorem sum_scattered {W : Type} [AddCommGroup W] [Module ℝ W] {vi vj : Bond → ℝ}
    {P : Bond → V3 → Prop} {bs : List Bond} {F R : Nat → V3} (N : Nat) (L : Nat → V3 →ₗ[ℝ] W)
    (h : Scattered vi vj P bs F R) (hN : ∀ b ∈ bs, b.i < N ∧ b.j < N)
    (hz : ∀ b ∈ bs, ∀ g, P b g → vj b • L b.i g = vi b • L b.j g) :
    ∑ k ∈ Finset.range N, L k (R k) = ∑ k ∈ Finset.range N, L k (F k) := by
  obtain ⟨gs, h1, h2, h3⟩ := h
  have key : ∑ k ∈ Finset.range N, L k ((gs.map (pull vi vj k)).sum) = 0 := by
    clear h3
    induction gs generalizing bs with
    | nil => simp
    | cons x gs ih =>
      subst h1
      simp only [List.map_cons, List.sum_cons, map_add, Finset.sum_add_distrib]
      have hx := hz x.1 List.mem_cons_self x.2 (h2 x List.mem_cons_self)
      have hb := hN x.1 List.mem_cons_self
      rw [ih (fun b hb => hN b (List.mem_cons_of_mem _ hb))
        (fun b hb => hz b (List.mem_cons_of_mem _ hb)) rfl
        (fun y hy => h2 y (List.mem_cons_of_mem _ hy)), add_zero]
      have e : ∀ k, L k (pull vi vj k x) =
          (if x.1.i = k then vj x.1 • L x.1.i x.2 else 0) -
            (if x.1.j = k then vi x.1 • L x.1.j x.2 else 0) := by
        intro k
        unfold pull
        rw [map_sub]
        congr 1
        · split
          · next h => subst h; rw [map_smul]
          · rw [map_zero]
        · split
          · next h => subst h; rw [map_smul]
          · rw [map_zero]
      simp only [e, Finset.sum_sub_distrib, Finset.sum_ite_eq, Finset.mem_range, hb.1, hb.2, if_true]
      rw [hx, sub_self]
  calc ∑ k ∈ Finset.range N, L k (R k)
      = ∑ k ∈ Finset.range N, (L k (F k) + L k ((gs.map (pull vi vj k)).sum)) := by
        apply Finset.sum_congr rfl
        intro k _
        rw [h3 k, map_add]
    _ = _ := by rw [Finset.sum_add_distrib, key, add_zero]

/-- The pair force acts along the deformed bond. -/
def Central (C : Config) (b : Bond) (g : V3) : Prop := ∃ s : ℝ, g = s • C.yd b

theorem along_central {C : Config} {b : Bond} {t : ℝ} {g : V3} (h : along C b t = .ok g) :
    Central C b g := by
  unfold along at h
  split at h
  · cases h
  · cases h
    refine ⟨t / C.dY b, ?_⟩
    funext c
    simp only [Pi.smul_apply, smul_eq_mul]
    ring

theorem force_of_scattered {C : Config} {P : Bond → V3 → Prop} {bs : List Bond} {R : Nat → V3} {N : Nat}
    (h : Scattered (selfVol C) (nbrVol C) P bs 0 R) (hN : ∀ b ∈ bs, b.i < N ∧ b.j < N) :
    totalForce C.v R N = 0 := by
  have := sum_scattered N (fun k => C.v k • LinearMap.id) h hN (by
    intro b _ g _
    simp only [LinearMap.smul_apply, LinearMap.id_apply, selfVol, nbrVol]
    module)
  simpa [totalForce] using this

theorem moment_of_scattered {C : Config} {bs : List Bond} {R : Nat → V3} {N : Nat}
    (h : Scattered (selfVol C) (nbrVol C) (Central C) bs 0 R) (hN : ∀ b ∈ bs, b.i < N ∧ b.j < N) :
    totalMoment C.y C.v R N = 0 := by
  have := sum_scattered N (fun k => C.v k • crossProduct (C.y k)) h hN (by
    rintro b _ g ⟨s, rfl⟩
    simp only [LinearMap.smul_apply, selfVol, nbrVol, map_smul]
    have : crossProduct (C.y b.i) (C.yd b) = crossProduct (C.y b.j) (C.yd b) := by
      unfold Config.yd
      rw [map_sub, map_sub, cross_self, cross_self, zero_sub, sub_zero, cross_anticomm]
    rw [this]
    module)
  simpa [totalMoment] using this

end Verif.Mech
