import Verif.Nox.Model
import Verif.Tensor.Lemmas
import Verif.QuasiStatic.SolveProps
import Mathlib.Tactic.Linarith

/-!
# Quasi-statics with NOX: preconditioner and residual (C45, C46, C71, C72)
-/

namespace Verif.Nox

open Verif Verif.BC Verif.Explicit Verif.Tensor

/-! ## Preconditioner: C45, C71 -/

theorem invertBlocks_ok : ∀ {ms r : List M9}, invertBlocks ms = .ok r →
    (∀ m ∈ ms, determinant m ≠ 0) ∧ r = ms.map fun m => (invert3 m).2 := by
  intro ms
  induction ms with
  | nil => intro r h; rw [← ok_inj h]; simp
  | cons m ms ih =>
    intro r h
    by_cases hc : (invert3 m).1 ≠ 0
    · have : invertBlocks (m :: ms) = .fail .terminate := if_pos hc
      rw [this] at h; exact absurd h (by simp)
    · have e : invertBlocks (m :: ms) = (invertBlocks ms >>= fun r => .ok ((invert3 m).2 :: r)) :=
        if_neg hc
      rw [e] at h
      obtain ⟨r', h1, h2⟩ := Outcome.bind_eq_ok.mp h
      obtain ⟨i1, i2⟩ := ih h1
      rw [not_not] at hc
      refine ⟨?_, ?_⟩
      · intro m' hm'
        rcases List.mem_cons.mp hm' with rfl | hm'
        · exact (invert3_code _).mp hc
        · exact i1 m' hm'
      · rw [← ok_inj h2, i2]; rfl

theorem invertBlocks_defined : ∀ {ms : List M9}, (∀ m ∈ ms, determinant m ≠ 0) →
    invertBlocks ms = .ok (ms.map fun m => (invert3 m).2) := by
  intro ms
  induction ms with
  | nil => intro _; rfl
  | cons m ms ih =>
    intro h
    have hc : ¬ (invert3 m).1 ≠ 0 := not_not.mpr ((invert3_code m).mpr (h m (List.mem_cons_self ..)))
    have e : invertBlocks (m :: ms) = (invertBlocks ms >>= fun r => .ok ((invert3 m).2 :: r)) :=
      if_neg hc
    rw [e, ih fun m' h' => h m' (List.mem_cons_of_mem _ h')]
    rfl

/-- A call that is not skipped. -/
theorem compute_ok {maxAge trigger : Int} {s s' : Prec} {t : List M9}
    (hage : ¬ (s.age > 0 ∧ s.age < maxAge)) (h : computePreconditioner maxAge trigger s t = .ok s') :
    trigger ≠ 0 ∧ s'.age = nextAge maxAge s.age ∧ s'.counter = s.counter + 1 ∧
      (Int.tmod s.counter trigger = 0 → (∀ m ∈ t, determinant m ≠ 0) ∧
        s'.blocks = t.map fun m => (invert3 m).2) ∧
      (Int.tmod s.counter trigger ≠ 0 → (∀ m ∈ s.blocks, determinant m ≠ 0) ∧
        s'.blocks = s.blocks.map fun m => (invert3 m).2) := by
  unfold computePreconditioner at h
  rw [if_neg hage] at h
  obtain ⟨s1, h1, h⟩ := Outcome.bind_eq_ok.mp h
  obtain ⟨b, h2, h⟩ := Outcome.bind_eq_ok.mp h
  have e := ok_inj h
  subst e
  obtain ⟨i1, i2⟩ := invertBlocks_ok h2
  unfold tangentUpdate at h1
  split at h1
  · exact absurd h1 (by simp)
  · rename_i hne
    split at h1
    · rename_i hm
      have e := ok_inj h1
      subst e
      exact ⟨hne, rfl, rfl, fun _ => ⟨i1, i2⟩, fun hn => absurd hm hn⟩
    · rename_i hm
      have e := ok_inj h1
      subst e
      exact ⟨hne, rfl, rfl, fun h0 => absurd h0 hm, fun _ => ⟨i1, i2⟩⟩

/-- **C45 is false**: with a maximum age of two or more, once a load step has built its
preconditioner no later call of that load step, however many there are and whatever the tangent has
become, rebuilds it. -/
theorem C45_never_rebuilt_partial (maxAge trigger : Int) (hmax : 2 ≤ maxAge) (s s1 : Prec)
    (t : List M9) (h : computePreconditioner maxAge trigger (beginStep s) t = .ok s1)
    (ts : List (List M9)) : preconditioners maxAge trigger s1 ts = .ok s1 := by
  have hage : s1.age = 1 := by
    have := (compute_ok (by simp [beginStep]) h).2.1
    rw [this]
    unfold nextAge beginStep
    rw [if_neg (by simp; omega)]
    rfl
  induction ts with
  | nil => rfl
  | cons t ts ih =>
    have e : computePreconditioner maxAge trigger s1 t = .ok s1 :=
      if_pos ⟨by omega, by omega⟩
    show (computePreconditioner maxAge trigger s1 t >>= fun s' => preconditioners maxAge trigger s' ts) = _
    rw [e]
    exact ih

/-- The property C45 asks for: after `n` calls of a load step the preconditioner is the inverse of
the tangent of one of the last `maxAge` of them. -/
def AgeRespected (maxAge trigger : Int) : Prop :=
  ∀ (s s' : Prec) (ts : List (List M9)), ts ≠ [] →
    preconditioners maxAge trigger (beginStep s) ts = .ok s' →
    ∃ t ∈ ts.drop (ts.length - maxAge.toNat), s'.blocks = t.map fun m => (invert3 m).2

/-- A multiple of the identity. -/
def diagonal (a : ℝ) : M9 := ⟨a, 0, 0, 0, a, 0, 0, 0, a⟩

theorem determinant_diagonal (a : ℝ) : determinant (diagonal a) = a * (a * a) := by
  unfold determinant diagonal; ring

theorem invert3_diagonal {a : ℝ} (ha : a ≠ 0) : (invert3 (diagonal a)).2 = diagonal (1 / a) := by
  have hd : determinant (diagonal a) ≠ 0 := by
    rw [determinant_diagonal]; exact mul_ne_zero ha (mul_ne_zero ha ha)
  apply toMatrix_injective
  have h1 := invert3_product hd
  have h2 : (diagonal a).toMatrix * (diagonal (1 / a)).toMatrix = 1 := by
    rw [← toMatrix_product]
    have : product (diagonal a) (diagonal (1 / a)) = ⟨1, 0, 0, 0, 1, 0, 0, 0, 1⟩ := by
      unfold product diagonal; ext <;> simp only <;> field_simp <;> ring
    rw [this]
    ext i j; fin_cases i <;> fin_cases j <;> rfl
  calc (invert3 (diagonal a)).2.toMatrix
      = (invert3 (diagonal a)).2.toMatrix * ((diagonal a).toMatrix * (diagonal (1 / a)).toMatrix) := by
        rw [h2, mul_one]
    _ = (diagonal (1 / a)).toMatrix := by rw [← mul_assoc, h1, one_mul]

theorem compute_first {maxAge trigger : Int} (htr : trigger ≠ 0) (s : Prec) {t : List M9}
    (ht : ∀ m ∈ t, determinant m ≠ 0) :
    computePreconditioner maxAge trigger (beginStep s) t =
      .ok { age := nextAge maxAge 0, counter := 1, blocks := t.map fun m => (invert3 m).2 } := by
  unfold computePreconditioner
  rw [if_neg (by simp [beginStep])]
  have e : tangentUpdate trigger t { beginStep s with age := nextAge maxAge (beginStep s).age } =
      .ok { age := nextAge maxAge 0, counter := 1, blocks := t } := by
    unfold tangentUpdate
    rw [if_neg htr, if_pos (by simp [beginStep])]
    rfl
  rw [e]
  simp only [Outcome.ok_bind]
  rw [invertBlocks_defined ht]
  rfl

/-- **C45 is false** for every maximum age of two or more: after `maxAge` further calls at
different tangents the preconditioner is still that of the first. -/
theorem C45_age_not_respected (maxAge : Int) (hmax : 2 ≤ maxAge) : ¬ AgeRespected maxAge 1 := by
  intro H
  have hd : ∀ a : ℝ, a ≠ 0 → ∀ m ∈ [diagonal a], determinant m ≠ 0 := by
    intro a ha m hm
    simp only [List.mem_cons, List.not_mem_nil, or_false] at hm
    rw [hm, determinant_diagonal]
    exact mul_ne_zero ha (mul_ne_zero ha ha)
  have h1 := compute_first (maxAge := maxAge) (trigger := 1) (by decide)
    { age := 0, counter := 0, blocks := [] } (hd 2 (by norm_num))
  have h2 := C45_never_rebuilt_partial maxAge 1 hmax _ _ _ h1
    (List.replicate maxAge.toNat [diagonal 1])
  have h3 := H { age := 0, counter := 0, blocks := [] } _
    ([diagonal 2] :: List.replicate maxAge.toNat [diagonal 1]) (by simp)
    (show (computePreconditioner maxAge 1 _ _ >>= fun s' => preconditioners maxAge 1 s' _) = _ by
      rw [h1]; exact h2)
  obtain ⟨t, ht, e⟩ := h3
  have hlen : ([diagonal 2] :: List.replicate maxAge.toNat [diagonal 1]).length - maxAge.toNat = 1 := by
    simp
  rw [hlen] at ht
  have ht1 : t = [diagonal 1] := by
    have ht' := ht
    simp only [List.drop_succ_cons, List.drop_zero] at ht'
    exact List.eq_of_mem_replicate ht'
  subst ht1
  simp only [List.map_cons, List.map_nil] at e
  rw [invert3_diagonal (by norm_num), invert3_diagonal (by norm_num)] at e
  have e' : diagonal (1 / 2) = diagonal (1 / 1) := by
    injection e
  have : (1 / 2 : ℝ) = 1 / 1 := congrArg M9.xx e'
  norm_num at this

/-- **C45**, what holds: a maximum age of at most one rebuilds the preconditioner in every call, so
that (with the default trigger) it is always that of the tangent last passed. -/
theorem C45_every_call_partial (maxAge : Int) (hmax : maxAge ≤ 1) : AgeRespected 1 1 ∧
    ∀ (s s' : Prec) (ts : List (List M9)) (t : List M9), (s.age = 0 ∨ s.age = 1) →
      preconditioners maxAge 1 s (ts ++ [t]) = .ok s' →
      (∀ m ∈ t, determinant m ≠ 0) ∧ s'.blocks = t.map fun m => (invert3 m).2 := by
  have gen : ∀ (maxAge : Int), maxAge ≤ 1 → ∀ (ts : List (List M9)) (s s' : Prec) (t : List M9),
      (s.age = 0 ∨ s.age = 1) → preconditioners maxAge 1 s (ts ++ [t]) = .ok s' →
      (∀ m ∈ t, determinant m ≠ 0) ∧ s'.blocks = t.map fun m => (invert3 m).2 := by
    intro maxAge hmax ts
    induction ts with
    | nil =>
      intro s s' t hage h
      obtain ⟨s1, h1, h2⟩ := Outcome.bind_eq_ok.mp
        (show (computePreconditioner maxAge 1 s t >>= fun s' => preconditioners maxAge 1 s' []) = _ from h)
      have := ok_inj h2
      subst this
      exact (compute_ok (by omega) h1).2.2.2.1 (Int.tmod_one _)
    | cons t0 ts ih =>
      intro s s' t hage h
      obtain ⟨s1, h1, h2⟩ := Outcome.bind_eq_ok.mp
        (show (computePreconditioner maxAge 1 s t0 >>= fun s' => preconditioners maxAge 1 s' (ts ++ [t])) = _
          from h)
      refine ih s1 s' t ?_ h2
      rw [(compute_ok (by omega) h1).2.1]
      unfold nextAge
      split <;> omega
  refine ⟨?_, fun s s' ts t => gen maxAge hmax ts s s' t⟩
  intro s s' ts hne h
  obtain ⟨ini, t, rfl⟩ : ∃ ini t, ts = ini ++ [t] :=
    ⟨ts.dropLast, ts.getLast hne, (List.dropLast_append_getLast hne).symm⟩
  refine ⟨t, ?_, (gen 1 (le_refl _) ini _ s' t (Or.inl rfl) h).2⟩
  have : (ini ++ [t]).length - (1 : Int).toNat = ini.length := by simp
  rw [this]
  simp

/-- Two calls with maximum age one, the second with a different tangent. -/
example : ∃ s', preconditioners 1 1 (beginStep ⟨0, 0, []⟩) [[diagonal 2], [diagonal 4]] = .ok s' ∧
    s'.blocks = [diagonal (1 / 4)] := by
  have hd : ∀ a : ℝ, a ≠ 0 → ∀ m ∈ [diagonal a], determinant m ≠ 0 := by
    intro a ha m hm
    simp only [List.mem_cons, List.not_mem_nil, or_false] at hm
    rw [hm, determinant_diagonal]
    exact mul_ne_zero ha (mul_ne_zero ha ha)
  have h1 := compute_first (maxAge := 1) (trigger := 1) (by decide)
    { age := 0, counter := 0, blocks := [] } (hd 2 (by norm_num))
  refine ⟨⟨1, 2, [diagonal (1 / 4)]⟩, ?_, rfl⟩
  show (computePreconditioner 1 1 _ _ >>= fun s' => preconditioners 1 1 s' [[diagonal 4]]) = _
  rw [h1]
  simp only [Outcome.ok_bind]
  show (computePreconditioner 1 1 _ _ >>= fun s' => preconditioners 1 1 s' []) = _
  unfold computePreconditioner
  rw [if_neg (by decide)]
  have e : tangentUpdate 1 [diagonal 4] { age := nextAge 1 (nextAge 1 0), counter := 1, blocks := [diagonal 2].map fun m => (invert3 m).2 } =
      .ok { age := 1, counter := 2, blocks := [diagonal 4] } := rfl
  simp only
  rw [e]
  simp only [Outcome.ok_bind]
  rw [invertBlocks_defined (hd 4 (by norm_num))]
  simp only [Outcome.ok_bind, List.map_cons, List.map_nil]
  rw [invert3_diagonal (by norm_num)]
  rfl

/-- **C71**, what holds: a call that is not skipped and in which the tangent is recomputed leaves,
block by block, the inverse of the tangent passed; a singular block terminates the run. -/
theorem C71_inverse_partial (maxAge trigger : Int) (s : Prec) (t : List M9)
    (hage : ¬ (s.age > 0 ∧ s.age < maxAge)) (htr : trigger ≠ 0)
    (hcount : Int.tmod s.counter trigger = 0) :
    ((∃ m ∈ t, m.toMatrix.det = 0) → computePreconditioner maxAge trigger s t = .fail .terminate) ∧
    ((∀ m ∈ t, m.toMatrix.det ≠ 0) → ∃ s', computePreconditioner maxAge trigger s t = .ok s' ∧
      List.Forall₂ (fun m b => m.toMatrix * b.toMatrix = 1 ∧ b.toMatrix * m.toMatrix = 1) t s'.blocks) := by
  have e : computePreconditioner maxAge trigger s t =
      (invertBlocks t >>= fun b =>
        .ok { age := nextAge maxAge s.age, counter := s.counter + 1, blocks := b }) := by
    unfold computePreconditioner
    rw [if_neg hage]
    have : tangentUpdate trigger t { s with age := nextAge maxAge s.age } =
        .ok { age := nextAge maxAge s.age, counter := s.counter + 1, blocks := t } := by
      unfold tangentUpdate
      rw [if_neg htr, if_pos hcount]
    rw [this]
    rfl
  constructor
  · intro hs
    have : invertBlocks t = .fail .terminate := by
      clear e
      induction t with
      | nil => obtain ⟨m, hm, _⟩ := hs; exact absurd hm (by simp)
      | cons m ms ih =>
        by_cases hc : (invert3 m).1 ≠ 0
        · exact if_pos hc
        · have e : invertBlocks (m :: ms) = (invertBlocks ms >>= fun r => .ok ((invert3 m).2 :: r)) :=
            if_neg hc
          rw [e, ih ?_]
          · rfl
          · obtain ⟨m', hm', hz⟩ := hs
            rcases List.mem_cons.mp hm' with rfl | hm'
            · rw [not_not] at hc
              exact absurd hz (by rw [← determinant_eq]; exact (invert3_code _).mp hc)
            · exact ⟨m', hm', hz⟩
    rw [e, this]
    rfl
  · intro hs
    have hd : ∀ m ∈ t, determinant m ≠ 0 := fun m hm => by rw [determinant_eq]; exact hs m hm
    refine ⟨_, by rw [e, invertBlocks_defined hd]; rfl, ?_⟩
    show List.Forall₂ _ t (t.map fun m => (invert3 m).2)
    clear e hs
    induction t with
    | nil => exact .nil
    | cons m ms ih =>
      have h0 := hd m (List.mem_cons_self ..)
      exact .cons ⟨product_invert3 h0, invert3_product h0⟩
        (ih fun m' hm' => hd m' (List.mem_cons_of_mem _ hm'))

example : ∃ s', computePreconditioner 200 1 ⟨0, 0, []⟩ [⟨2, 1, 0, 0, 1, 0, 0, 0, 3⟩] = .ok s' ∧
    s'.blocks.length = 1 := by
  obtain ⟨s', h1, h2⟩ := (C71_inverse_partial 200 1 ⟨0, 0, []⟩ [⟨2, 1, 0, 0, 1, 0, 0, 0, 3⟩] (by simp)
    (by decide) rfl).2 (by
      intro m hm
      simp only [List.mem_cons, List.not_mem_nil, or_false] at hm
      rw [hm, ← determinant_eq]
      unfold determinant
      norm_num)
  exact ⟨s', h1, h2.length_eq.symm⟩

/-- The property C71 asks for: whenever a call rebuilds the preconditioner, it is the inverse of the
tangent passed to that call or, if the tangent is kept, stays the inverse that was last built. -/
def InverseEachTime (maxAge trigger : Int) : Prop :=
  ∀ (s s1 s2 : Prec) (t1 t2 : List M9), computePreconditioner maxAge trigger (beginStep s) t1 = .ok s1 →
    computePreconditioner maxAge trigger s1 t2 = .ok s2 →
    s2.blocks = (t2.map fun m => (invert3 m).2) ∨ s2.blocks = t1.map fun m => (invert3 m).2

/-- **C71 is false** if the tangent is not recomputed in every call ("Update Jacobian" two or more)
and the preconditioner does not survive (maximum age one): the second call inverts the inverse it
finds in the tangent, so that the preconditioner is the tangent itself. -/
theorem C71_inverted_twice (trigger : Int) (htr : 2 ≤ trigger) : ¬ InverseEachTime 1 trigger := by
  intro H
  have hd : ∀ a : ℝ, a ≠ 0 → ∀ m ∈ [diagonal a], determinant m ≠ 0 := by
    intro a ha m hm
    simp only [List.mem_cons, List.not_mem_nil, or_false] at hm
    rw [hm, determinant_diagonal]
    exact mul_ne_zero ha (mul_ne_zero ha ha)
  have h1 := compute_first (maxAge := 1) (trigger := trigger) (by omega)
    { age := 0, counter := 0, blocks := [] } (hd 2 (by norm_num))
  simp only [List.map_cons, List.map_nil] at h1
  rw [invert3_diagonal (by norm_num)] at h1
  have h2 : computePreconditioner 1 trigger ⟨nextAge 1 0, 1, [diagonal (1 / 2)]⟩ [diagonal 2] =
      .ok ⟨1, 2, [diagonal 2]⟩ := by
    unfold computePreconditioner
    rw [if_neg (by decide)]
    have e : tangentUpdate trigger [diagonal 2] { age := nextAge 1 (nextAge 1 0), counter := 1, blocks := [diagonal (1 / 2)] } =
        .ok { age := 1, counter := 2, blocks := [diagonal (1 / 2)] } := by
      unfold tangentUpdate
      rw [if_neg (by omega)]
      have hm : ¬ Int.tmod 1 trigger = 0 := by
        rw [Int.tmod_eq_of_lt (by omega) (by omega)]; omega
      rw [if_neg hm]
      rfl
    simp only
    rw [e]
    simp only [Outcome.ok_bind]
    rw [invertBlocks_defined (hd (1 / 2) (by norm_num))]
    simp only [Outcome.ok_bind, List.map_cons, List.map_nil]
    rw [invert3_diagonal (by norm_num)]
    norm_num
  have h3 := H _ _ _ _ _ h1 h2
  simp only [List.map_cons, List.map_nil, or_self] at h3
  rw [invert3_diagonal (by norm_num)] at h3
  have e' : diagonal 2 = diagonal (1 / 2) := by injection h3
  have : (2 : ℝ) = 1 / 2 := congrArg M9.xx e'
  norm_num at this

end Verif.Nox
