import Verif.Pals.Spec

/-! Lemmas for C132: the linear problems. -/

noncomputable section

namespace Verif.Pals

open Verif Verif.Neigh Verif.Mech Verif.Energy
open scoped Classical Matrix

theorem foldl_add {α : Type} (l : List α) (f : α → ℝ) (a : ℝ) :
    l.foldl (fun t b => t + f b) a = a + (l.map f).sum := by
  induction l generalizing a with
  | nil => simp
  | cons b l ih => rw [List.foldl_cons, ih, List.map_cons, List.sum_cons, add_assoc]

theorem addBond_fold (L : Law) (h : ℝ) (bs : List (V3 × ℝ)) (S : System) :
    (∀ i j, (bs.foldl (addBond L h) S).k i j =
        S.k i j + (bs.map fun b => dilModes b.1 i * dilModes b.1 j * b.2).sum) ∧
      (∀ i j, (bs.foldl (addBond L h) S).kDev i j =
        S.kDev i j + (bs.map fun b => devModes b.1 i * devModes b.1 i * (devModes b.1 j * devModes b.1 j) * b.2).sum) ∧
      (∀ i, (bs.foldl (addBond L h) S).rhsDil i =
        S.rhsDil i + (bs.map fun b => L.omega0 (len b.1) h * dilModes b.1 i * b.2).sum) ∧
      ∀ i, (bs.foldl (addBond L h) S).rhsDev i =
        S.rhsDev i + (bs.map fun b => L.sigma0 (len b.1) h * devModes b.1 i * devModes b.1 i * b.2).sum := by
  induction bs generalizing S with
  | nil => simp
  | cons b bs ih =>
    obtain ⟨h1, h2, h3, h4⟩ := ih (addBond L h S b)
    simp only [List.foldl_cons, List.map_cons, List.sum_cons]
    refine ⟨fun i j => ?_, fun i j => ?_, fun i => ?_, fun i => ?_⟩
    · rw [h1, ← add_assoc]; rfl
    · rw [h2, ← add_assoc]; rfl
    · rw [h3, ← add_assoc]; rfl
    · rw [h4, ← add_assoc]; rfl

/-- What the loop of repairs does. -/
theorem repair_fold (tr : ℝ) (d : Fin 6 → ℝ) (l : List (Fin 6)) (hn : l.Nodup) (S : System)
    (hd : ∀ j ∈ l, S.k j j = d j) :
    (∀ a b, (l.foldl (repairStep tr) S).k a b =
        if (a ∈ l ∧ tr ≠ 0 ∧ d a / tr < 1.0e-15) ∨ (b ∈ l ∧ tr ≠ 0 ∧ d b / tr < 1.0e-15) then (if a = b then 1 else 0)
        else S.k a b) ∧
      (∀ a b, (l.foldl (repairStep tr) S).kDev a b =
        if (a ∈ l ∧ tr ≠ 0 ∧ d a / tr < 1.0e-15) ∨ (b ∈ l ∧ tr ≠ 0 ∧ d b / tr < 1.0e-15) then (if a = b then 1 else 0)
        else S.kDev a b) ∧
      (∀ a, (l.foldl (repairStep tr) S).rhsDil a =
        if a ∈ l ∧ tr ≠ 0 ∧ d a / tr < 1.0e-15 then 0 else S.rhsDil a) ∧
      ∀ a, (l.foldl (repairStep tr) S).rhsDev a =
        if a ∈ l ∧ tr ≠ 0 ∧ d a / tr < 1.0e-15 then 0 else S.rhsDev a := by
  induction l generalizing S with
  | nil => simp
  | cons i l ih =>
    rw [List.nodup_cons] at hn
    have hdi := hd i List.mem_cons_self
    have key : ∀ j ∈ l, (repairStep tr S i).k j j = d j := by
      intro j hj
      have hji : j ≠ i := fun h => hn.1 (h ▸ hj)
      rw [← hd j (List.mem_cons_of_mem _ hj)]
      unfold repairStep
      split
      · simp [clear, hji]
      · rfl
    obtain ⟨h1, h2, h3, h4⟩ := ih hn.2 (repairStep tr S i) key
    simp only [List.foldl_cons]
    by_cases hb : tr ≠ 0 ∧ d i / tr < 1.0e-15
    · have hs : repairStep tr S i = { k := clear S.k i, kDev := clear S.kDev i, rhsDil := Function.update S.rhsDil i 0, rhsDev := Function.update S.rhsDev i 0 } := by
        unfold repairStep
        rw [hdi, if_pos hb]
      have hclear : ∀ (k : Matrix (Fin 6) (Fin 6) ℝ) (a b : Fin 6),
          (if (a ∈ l ∧ tr ≠ 0 ∧ d a / tr < 1.0e-15) ∨ (b ∈ l ∧ tr ≠ 0 ∧ d b / tr < 1.0e-15) then (if a = b then 1 else 0)
            else clear k i a b) =
          if (a ∈ i :: l ∧ tr ≠ 0 ∧ d a / tr < 1.0e-15) ∨ (b ∈ i :: l ∧ tr ≠ 0 ∧ d b / tr < 1.0e-15) then
            (if a = b then 1 else 0) else k a b := by
        intro k a b
        by_cases ha : a = i
        · subst ha
          rw [if_pos (c := (a ∈ a :: l ∧ _) ∨ _) (Or.inl ⟨List.mem_cons_self, hb⟩)]
          by_cases hab : a = b
          · subst hab
            simp [clear]
          · have hba : b ≠ a := fun h => hab h.symm
            simp [clear, hab, hba]
        · by_cases hbi : b = i
          · subst hbi
            rw [if_pos (c := (a ∈ b :: l ∧ _) ∨ _) (Or.inr ⟨List.mem_cons_self, hb⟩)]
            simp [clear, ha]
          · simp only [List.mem_cons, ha, hbi, false_or, clear, false_and, or_self, if_false]
      have hupd : ∀ (r : Fin 6 → ℝ) (a : Fin 6),
          (if a ∈ l ∧ tr ≠ 0 ∧ d a / tr < 1.0e-15 then 0 else Function.update r i 0 a) =
          if a ∈ i :: l ∧ tr ≠ 0 ∧ d a / tr < 1.0e-15 then 0 else r a := by
        intro r a
        by_cases ha : a = i
        · subst ha
          rw [if_pos (c := a ∈ a :: l ∧ _) ⟨List.mem_cons_self, hb⟩, Function.update_self]
          simp
        · rw [Function.update_of_ne ha]
          simp only [List.mem_cons, ha, false_or]
      refine ⟨fun a b => ?_, fun a b => ?_, fun a => ?_, fun a => ?_⟩
      · rw [h1, hs]; exact hclear S.k a b
      · rw [h2, hs]; exact hclear S.kDev a b
      · rw [h3, hs]; exact hupd S.rhsDil a
      · rw [h4, hs]; exact hupd S.rhsDev a
    · have hs : repairStep tr S i = S := by
        unfold repairStep
        rw [hdi, if_neg hb]
      have hmem : ∀ a, (a ∈ i :: l ∧ tr ≠ 0 ∧ d a / tr < 1.0e-15) ↔ (a ∈ l ∧ tr ≠ 0 ∧ d a / tr < 1.0e-15) := by
        intro a
        constructor
        · rintro ⟨h, h'⟩
          rcases List.mem_cons.1 h with rfl | h
          · exact absurd h' hb
          · exact ⟨h, h'⟩
        · rintro ⟨h, h'⟩
          exact ⟨List.mem_cons_of_mem _ h, h'⟩
      simp only [hmem]
      rw [hs] at h1 h2 h3 h4
      exact ⟨fun a b => by rw [hs, h1], fun a b => by rw [hs, h2], fun a => by rw [hs, h3], fun a => by rw [hs, h4]⟩

/-- A mode is taken out. -/
def Out (k : Matrix (Fin 6) (Fin 6) ℝ) (i : Fin 6) : Prop := traceOf k ≠ 0 ∧ k i i / traceOf k < 1.0e-15

theorem repair_spec (S : System) :
    (∀ a b, (repair S).k a b = if Out S.k a ∨ Out S.k b then (if a = b then 1 else 0) else S.k a b) ∧
      (∀ a b, (repair S).kDev a b = if Out S.k a ∨ Out S.k b then (if a = b then 1 else 0) else S.kDev a b) ∧
      (∀ a, (repair S).rhsDil a = if Out S.k a then 0 else S.rhsDil a) ∧
      ∀ a, (repair S).rhsDev a = if Out S.k a then 0 else S.rhsDev a := by
  obtain ⟨h1, h2, h3, h4⟩ := repair_fold (traceOf S.k) (fun j => S.k j j) (List.finRange 6) (List.nodup_finRange 6) S
    (fun _ _ => rfl)
  simp only [List.mem_finRange, true_and] at h1 h2 h3 h4
  unfold Out
  refine ⟨fun a b => ?_, fun a b => ?_, fun a => ?_, fun a => ?_⟩
  · convert h1 a b; rfl
  · convert h2 a b; rfl
  · convert h3 a; rfl
  · convert h4 a; rfl

theorem traceOf_eq (k : Matrix (Fin 6) (Fin 6) ℝ) : traceOf k = ∑ i, k i i := by
  rw [traceOf, foldl_add, zero_add, ← List.sum_ofFn, List.ofFn_eq_map]

theorem solve_ok {k : Matrix (Fin 6) (Fin 6) ℝ} {rhs w : Fin 6 → ℝ} (h : solve k rhs = .ok w) :
    k *ᵥ w = rhs := by
  unfold solve at h
  split at h
  · cases h
  · next hd =>
    cases h
    rw [Matrix.mulVec_mulVec, Matrix.mul_nonsing_inv _ (isUnit_iff_ne_zero.2 hd), Matrix.one_mulVec]

/-- The solution of a repaired problem satisfies the equations that were not taken out, and has no part in the modes
that were. -/
theorem repaired {k0 k : Matrix (Fin 6) (Fin 6) ℝ} {r0 r w : Fin 6 → ℝ} {P : Fin 6 → Prop}
    (hk : ∀ a b, k a b = if P a ∨ P b then (if a = b then 1 else 0) else k0 a b)
    (hr : ∀ a, r a = if P a then 0 else r0 a) (hw : k *ᵥ w = r) :
    (∀ i, P i → w i = 0) ∧ ∀ i, ¬ P i → ∑ j, k0 i j * w j = r0 i := by
  have h1 : ∀ i, P i → w i = 0 := by
    intro i hi
    have := congrFun hw i
    rw [hr i, if_pos hi] at this
    rw [← this]
    simp only [Matrix.mulVec, dotProduct]
    rw [Finset.sum_eq_single i]
    · rw [hk, if_pos (Or.inl hi), if_pos rfl, one_mul]
    · intro j _ hj
      rw [hk, if_pos (Or.inl hi), if_neg (Ne.symm hj), zero_mul]
    · intro h
      exact absurd (Finset.mem_univ i) h
  refine ⟨h1, fun i hi => ?_⟩
  have := congrFun hw i
  rw [hr i, if_neg hi] at this
  rw [← this]
  simp only [Matrix.mulVec, dotProduct]
  apply Finset.sum_congr rfl
  intro j _
  by_cases hj : P j
  · rw [h1 j hj, mul_zero, mul_zero]
  · rw [hk, if_neg (by simp [hi, hj])]

theorem dilEval_eq (d : V3) (w : Fin 6 → ℝ) : dilEval d w = ∑ j, dilModes d j * w j := by
  simp [dilEval, dilModes, Fin.sum_univ_succ]
  ring

theorem devEval_eq (d : V3) (w : Fin 6 → ℝ) : devEval d w = ∑ j, devModes d j * devModes d j * w j := by
  simp [devEval, devModes, Fin.sum_univ_succ]
  ring

theorem sum_swap (bs : List (V3 × ℝ)) (f : V3 × ℝ → Fin 6 → ℝ) (w : Fin 6 → ℝ) :
    ∑ j, (bs.map fun b => f b j).sum * w j = (bs.map fun b => ∑ j, f b j * w j).sum := by
  induction bs with
  | nil => simp
  | cons b bs ih =>
    simp only [List.map_cons, List.sum_cons, add_mul, Finset.sum_add_distrib]
    rw [ih]

theorem list_add {α : Type} (l : List α) (f g : α → ℝ) :
    (l.map fun b => f b + g b).sum = (l.map f).sum + (l.map g).sum := by
  induction l with
  | nil => simp
  | cons b l ih => simp only [List.map_cons, List.sum_cons]; rw [ih]; ring

/-- The matrix of the first problem. -/
def gram (bs : List (V3 × ℝ)) : Matrix (Fin 6) (Fin 6) ℝ :=
  fun i j => (bs.map fun b => dilModes b.1 i * dilModes b.1 j * b.2).sum

/-- The matrix of the second problem. -/
def gramDev (bs : List (V3 × ℝ)) : Matrix (Fin 6) (Fin 6) ℝ :=
  fun i j => (bs.map fun b => devModes b.1 i * devModes b.1 i * (devModes b.1 j * devModes b.1 j) * b.2).sum

theorem systemOf_spec (L : Law) (h : ℝ) (bs : List (V3 × ℝ)) :
    (∀ a b, (systemOf L h bs).k a b =
        if Out (gram bs) a ∨ Out (gram bs) b then (if a = b then 1 else 0) else gram bs a b) ∧
      (∀ a b, (systemOf L h bs).kDev a b =
        if Out (gram bs) a ∨ Out (gram bs) b then (if a = b then 1 else 0) else gramDev bs a b) ∧
      (∀ a, (systemOf L h bs).rhsDil a = if Out (gram bs) a then 0 else
        (![1, 1, 1, 0, 0, 0] : Fin 6 → ℝ) a - (bs.map fun b => L.omega0 (len b.1) h * dilModes b.1 a * b.2).sum) ∧
      ∀ a, (systemOf L h bs).rhsDev a = if Out (gram bs) a then 0 else
        (![2 / 3, 2 / 3, 2 / 3, 2, 2, 2] : Fin 6 → ℝ) a -
          (bs.map fun b => L.sigma0 (len b.1) h * devModes b.1 a * devModes b.1 a * b.2).sum := by
  obtain ⟨f1, f2, f3, f4⟩ := addBond_fold L h bs ⟨0, 0, 0, 0⟩
  have hk : (finishRhs (bs.foldl (addBond L h) ⟨0, 0, 0, 0⟩)).k = gram bs := by
    funext i j
    change (bs.foldl (addBond L h) ⟨0, 0, 0, 0⟩).k i j = _
    rw [f1]
    exact zero_add _
  have hd : (finishRhs (bs.foldl (addBond L h) ⟨0, 0, 0, 0⟩)).kDev = gramDev bs := by
    funext i j
    change (bs.foldl (addBond L h) ⟨0, 0, 0, 0⟩).kDev i j = _
    rw [f2]
    exact zero_add _
  obtain ⟨h1, h2, h3, h4⟩ := repair_spec (finishRhs (bs.foldl (addBond L h) ⟨0, 0, 0, 0⟩))
  rw [hk] at h1 h2 h3 h4
  rw [hd] at h2
  refine ⟨h1, h2, fun a => (h3 a).trans ?_, fun a => (h4 a).trans ?_⟩
  · congr 1
    simp only [finishRhs, f3, Pi.zero_apply, zero_add, one_mul]
  · congr 1
    simp only [finishRhs, f4, Pi.zero_apply, zero_add, one_mul]

/-- The multipliers of a point make the composite influence functions match. -/
theorem multipliers_match {L : Law} {h : ℝ} {bs : List (V3 × ℝ)} {w t : Fin 6 → ℝ}
    (hm : multipliersOf L h bs = .ok (w, t)) :
    (∀ b ∈ bs, len b.1 ≠ 0) ∧
    ∀ i, ¬ Out (gram bs) i →
      (bs.map fun b => (L.omega0 (len b.1) h + dilEval b.1 w) * dilModes b.1 i * b.2).sum =
        (![1, 1, 1, 0, 0, 0] : Fin 6 → ℝ) i ∧
      (bs.map fun b => (L.sigma0 (len b.1) h + devEval b.1 t) * (devModes b.1 i * devModes b.1 i) * b.2).sum =
        (![2 / 3, 2 / 3, 2 / 3, 2, 2, 2] : Fin 6 → ℝ) i := by
  unfold multipliersOf at hm
  split at hm
  · cases hm
  · next hlen =>
    refine ⟨fun b hb h0 => hlen ⟨b, hb, h0⟩, ?_⟩
    simp only at hm
    split at hm
    · next w' hw =>
      split at hm
      · next t' ht =>
        cases hm
        obtain ⟨s1, s2, s3, s4⟩ := systemOf_spec L h bs
        have e1 := (repaired s1 s3 (solve_ok hw)).2
        have e2 := (repaired s2 s4 (solve_ok ht)).2
        intro i hi
        constructor
        · have := e1 i hi
          unfold gram at this
          rw [sum_swap] at this
          rw [eq_sub_iff_add_eq] at this
          rw [← this, ← list_add]
          congr 1
          apply List.map_congr_left
          intro b _
          rw [dilEval_eq, add_mul, add_mul, add_comm, Finset.sum_mul, Finset.sum_mul]
          congr 1
          apply Finset.sum_congr rfl
          intro j _
          ring
        · have := e2 i hi
          unfold gramDev at this
          rw [sum_swap] at this
          rw [eq_sub_iff_add_eq] at this
          rw [← this, ← list_add]
          congr 1
          apply List.map_congr_left
          intro b _
          rw [devEval_eq, add_mul, add_mul, add_comm, Finset.sum_mul, Finset.sum_mul]
          congr 1
          · apply Finset.sum_congr rfl
            intro j _
            ring
          · ring
      · cases hm
      · cases hm
    · cases hm
    · cases hm

theorem multipliersLoop_spec {L : Law} {C : Config} {bonds : List Bond} {ps : List Nat} (hn : ps.Nodup) {S S' : Setup}
    (h : multipliersLoop L C bonds ps S = .ok S') :
    (∀ p ∈ ps, multipliersOf L C.horizon ((bonds.filter fun b => b.i = p).map fun b => (xi C b, C.v b.j)) =
        .ok (S'.lam p, S'.tau p) ∧ S'.oc p = 1 ∧ S'.sc p = 1) ∧
      ∀ p, p ∉ ps → S'.lam p = S.lam p ∧ S'.tau p = S.tau p ∧ S'.oc p = S.oc p ∧ S'.sc p = S.sc p := by
  induction ps generalizing S with
  | nil => cases h; simp
  | cons q ps ih =>
    rw [List.nodup_cons] at hn
    rw [multipliersLoop] at h
    split at h
    · next w t hm =>
      obtain ⟨h1, h2⟩ := ih hn.2 h
      constructor
      · intro p hp
        rcases List.mem_cons.1 hp with rfl | hp
        · obtain ⟨a, b, c, d⟩ := h2 _ hn.1
          rw [a, b, c, d]
          simp only [Function.update_self]
          exact ⟨hm, trivial, trivial⟩
        · exact h1 p hp
      · intro p hp
        rw [List.mem_cons, not_or] at hp
        obtain ⟨a, b, c, d⟩ := h2 p hp.2
        rw [a, b, c, d]
        simp only [Function.update_of_ne hp.1, and_self]
    · cases h
    · cases h

/-- What a successful set-up stores. -/
theorem prepare_spec {L : Law} {C : Config} {nbs : List (List Nat)} {S0 S : Setup}
    (h : prepare L C nbs.length (encode nbs) S0 = .ok S) {p : Nat} (hp : p < nbs.length) :
    multipliersOf L C.horizon ((bondsAt nbs p).map fun b => (xi C b, C.v b.j)) = .ok (S.lam p, S.tau p) ∧
      S.oc p = 1 ∧ S.sc p = 1 ∧
      S.m p = ((bondsAt nbs p).map fun b => sigma L C S b * C.zeta b ^ 2 * C.v b.j).sum := by
  unfold prepare at h
  rw [visited_encode] at h
  split at h
  · simp only at h
    split at h
    · next S1 h1 =>
      cases h
      obtain ⟨a, b, c⟩ := (multipliersLoop_spec List.nodup_range h1).1 p (List.mem_range.2 hp)
      refine ⟨a, b, c, ?_⟩
      simp only [weightedVolume, if_pos hp]
      rw [foldl_add, zero_add]
      congr 1
      apply List.map_congr_left
      intro b _
      rw [sq]
      rfl
    · cases h
    · cases h
  · cases h
  · cases h

theorem dilModes_eq (d : V3) (i : Fin 6) : dilModes d i = quad (unitStrain i) d := by
  fin_cases i <;> simp [dilModes, quad, unitStrain, Matrix.mulVec, dotProduct, Fin.sum_univ_three] <;> ring

theorem len_sq (d : V3) : len d * len d = d 0 * d 0 + d 1 * d 1 + d 2 * d 2 :=
  Real.mul_self_sqrt (by nlinarith [mul_self_nonneg (d 0), mul_self_nonneg (d 1), mul_self_nonneg (d 2)])

theorem devModes_eq {d : V3} (hd : len d ≠ 0) (i : Fin 6) :
    devModes d i = quad (deviator (unitStrain i)) d / len d := by
  have h2 := len_sq d
  rw [eq_div_iff hd]
  fin_cases i <;>
    simp [devModes, quad, deviator, unitStrain, Matrix.mulVec, dotProduct, Fin.sum_univ_three, Matrix.trace,
      Matrix.one_apply, sub_mul] <;>
    first
    | (field_simp; ring_nf; ring_nf at h2; linarith)
    | (field_simp; ring_nf)
    | (rw [div_mul_cancel₀ _ hd]; linear_combination (-1/3 : ℝ) * h2)

theorem quad_eq (E : Matrix (Fin 3) (Fin 3) ℝ) (d : V3) :
    quad E d = E 0 0 * quad (unitStrain 0) d + E 1 1 * quad (unitStrain 1) d + E 2 2 * quad (unitStrain 2) d +
      (E 0 1 + E 1 0) / 2 * quad (unitStrain 3) d + (E 0 2 + E 2 0) / 2 * quad (unitStrain 4) d +
      (E 1 2 + E 2 1) / 2 * quad (unitStrain 5) d := by
  simp [quad, unitStrain, Matrix.mulVec, dotProduct, Fin.sum_univ_three]
  ring

theorem square_unit (i : Fin 6) :
    square (deviator (unitStrain i)) = (![2 / 3, 2 / 3, 2 / 3, 2, 2, 2] : Fin 6 → ℝ) i := by
  fin_cases i <;>
    simp [square, deviator, unitStrain, Fin.sum_univ_three, Matrix.trace, Matrix.one_apply] <;> norm_num

theorem trace_unit (i : Fin 6) :
    (unitStrain i).trace = (![1, 1, 1, 0, 0, 0] : Fin 6 → ℝ) i := by
  fin_cases i <;> simp [unitStrain, Fin.sum_univ_three, Matrix.trace]

theorem gram_diag (C : Config) (nbs : List (List Nat)) (p : Nat) (i : Fin 6) :
    gram ((bondsAt nbs p).map fun b => (xi C b, C.v b.j)) i i = share C nbs p i := by
  unfold gram share
  rw [List.map_map]
  congr 1
  apply List.map_congr_left
  intro b _
  simp only [Function.comp_apply, dilModes_eq, sq]
  rfl

theorem not_out {C : Config} {nbs : List (List Nat)} {p : Nat} {i : Fin 6} (hv : ∀ b ∈ bondsAt nbs p, 0 ≤ C.v b.j)
    (h : Sees C nbs p i) : ¬ Out (gram ((bondsAt nbs p).map fun b => (xi C b, C.v b.j))) i := by
  rintro ⟨h0, hlt⟩
  rw [traceOf_eq] at h0 hlt
  simp only [gram_diag] at h0 hlt
  have hpos : 0 < ∑ j, share C nbs p j := by
    refine lt_of_le_of_ne (Finset.sum_nonneg fun j _ => ?_) (Ne.symm h0)
    apply List.sum_nonneg
    intro x hx
    obtain ⟨b, hb, rfl⟩ := List.mem_map.1 hx
    exact mul_nonneg (sq_nonneg _) (hv b hb)
  rw [div_lt_iff₀ hpos] at hlt
  unfold Sees at h
  linarith

end Verif.Pals
