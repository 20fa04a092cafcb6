import Verif.Tangent.FdLemmas

/-! The contribution of one neighborhood to the finite-difference tangent. -/

noncomputable section

namespace Verif.Tangent

open Verif Verif.Neigh Verif.Mech
open scoped Classical

/-- An analysis whose unknowns are the displacements. -/
structure Mechanical (P : Settings) : Prop where
  numDof : P.numDof = 3
  numDisp : P.numDisplacementDof = 3
  offset : P.displacementOffset = 0
  thermal : P.thermal = false

/-- An analysis whose unknowns are the temperatures. -/
structure Thermal (P : Settings) : Prop where
  numDof : P.numDof = 1
  numDisp : P.numDisplacementDof = 0
  offset : P.temperatureOffset = 0
  thermal : P.thermal = true

/-- The local matrix before scaling. -/
def mechEntry (P : Settings) (K : Kernel) (gids : List Nat) (y v : Nat → ℝ) (r c : Nat) : ℝ :=
  quot P (out (K gids (bump y c P.epsilon) (bump v c (P.epsilon / P.dt))))
    (out (K gids (bump y c (-P.epsilon)) (bump v c (-(P.epsilon / P.dt))))) r

@[inherit_doc mechEntry]
def thermEntry (P : Settings) (Q : FluxKernel) (gids : List Nat) (T : Nat → ℝ) (r c : Nat) : ℝ :=
  quot P (out (Q gids (bump T c P.epsilon))) (out (Q gids (bump T c (-P.epsilon)))) r

theorem bump_sub (Y : Nat → ℝ) (k : Nat) (d : ℝ) : Function.update Y k (Y k - d) = bump Y k (-d) := by
  unfold bump
  rw [sub_eq_add_neg]

theorem displacementColumn_ok {P : Settings} (hP : Mechanical P) {K : Kernel} {gids : List Nat}
    {y v : Nat → ℝ} {pid dof : Nat} {S S' : Scratch} (hn : 0 < gids.length)
    (h : displacementColumn P K gids y v pid S dof = .ok S') : S'.dim = S.dim ∧ ∀ r c, S'.val r c =
      if c = 3 * pid + dof ∧ r < 3 * gids.length then some (mechEntry P K gids y v r c) else S.val r c := by
  unfold displacementColumn at h
  simp only at h
  split at h
  · cases h
  · obtain ⟨f0, h0, h⟩ := Outcome.bind_eq_ok.1 h
    obtain ⟨f1, h1, h⟩ := Outcome.bind_eq_ok.1 h
    rw [hP.offset, Nat.add_zero, ← hP.numDof] at h
    obtain ⟨e1, e2⟩ := writeColumn_ok hn h
    rw [hP.numDof] at e2
    refine ⟨e1, fun r c => ?_⟩
    rw [e2]
    by_cases hc : c = 3 * pid + dof ∧ r < 3 * gids.length
    · rw [if_pos hc, if_pos hc, mechEntry]
      rw [bump_sub, bump_sub, hP.numDof, ← hc.1] at h0
      rw [hP.numDof, ← hc.1] at h1
      rw [h0]
      change K gids (bump y c P.epsilon) (bump v c (P.epsilon / P.dt)) = .ok f1 at h1
      rw [h1]
      rfl
    · rw [if_neg hc, if_neg hc]

theorem displacementColumn_defined {P : Settings} (hP : Mechanical P) {K : Kernel} {gids : List Nat}
    {y v : Nat → ℝ} {pid dof : Nat} {S : Scratch} (hlt : 3 * pid + dof < 3 * gids.length)
    (he : P.epsilon ≠ 0) (ht : P.dt ≠ 0) (hd : 3 * gids.length ≤ S.dim)
    (hK : ∀ k < 3 * gids.length, ∀ s : ℝ, s = P.epsilon ∨ s = -P.epsilon →
      ∃ f, K gids (bump y k s) (bump v k (s / P.dt)) = .ok f) :
    ∃ S', displacementColumn P K gids y v pid S dof = .ok S' ∧ S'.dim = S.dim := by
  unfold displacementColumn
  simp only
  rw [if_neg (by rw [hP.numDof]; push Not; exact ⟨hlt, he, ht⟩)]
  obtain ⟨f0, h0⟩ := hK _ hlt _ (.inr rfl)
  obtain ⟨f1, h1⟩ := hK _ hlt _ (.inl rfl)
  rw [bump_sub, bump_sub, hP.numDof]
  rw [neg_div] at h0
  rw [h0, Outcome.ok_bind]
  change K gids (Function.update y _ _) (Function.update v _ _) = .ok f1 at h1
  rw [h1, Outcome.ok_bind, hP.offset, Nat.add_zero]
  have hn : 0 < gids.length := by omega
  have := writeColumn_defined (P := P) (col := 3 * pid + dof) (f1 := f1) (f0 := f0) (S := S) hn
    (by rw [hP.numDof]; exact hd) (by omega)
  rw [hP.numDof] at this
  exact this

theorem temperatureColumn_ok {P : Settings} (hP : Thermal P) {Q : FluxKernel} {gids : List Nat}
    {T : Nat → ℝ} {pid : Nat} {S S' : Scratch} (hn : 0 < gids.length)
    (h : temperatureColumn P Q gids T pid S = .ok S') : S'.dim = S.dim ∧ ∀ r c, S'.val r c =
      if c = pid ∧ r < gids.length then some (thermEntry P Q gids T r c) else S.val r c := by
  unfold temperatureColumn at h
  split at h
  · cases h
  · obtain ⟨f0, h0, h⟩ := Outcome.bind_eq_ok.1 h
    obtain ⟨f1, h1, h⟩ := Outcome.bind_eq_ok.1 h
    have h' : writeColumn P gids.length P.numDof P.numDof (P.numDof * gids.length) 0 pid f1 f0 S =
        .ok S' := by
      rw [hP.offset, hP.numDof, Nat.one_mul, Nat.add_zero] at h
      rw [hP.numDof, Nat.one_mul]
      exact h
    obtain ⟨e1, e2⟩ := writeColumn_ok hn h'
    rw [hP.numDof, Nat.one_mul] at e2
    refine ⟨e1, fun r c => ?_⟩
    rw [e2]
    by_cases hc : c = pid ∧ r < gids.length
    · rw [if_pos hc, if_pos hc, thermEntry]
      rw [bump_sub, ← hc.1] at h0
      rw [← hc.1] at h1
      change Q gids (bump T c P.epsilon) = .ok f1 at h1
      rw [h0, h1]
      rfl
    · rw [if_neg hc, if_neg hc]

theorem temperatureColumn_defined {P : Settings} (hP : Thermal P) {Q : FluxKernel} {gids : List Nat}
    {T : Nat → ℝ} {pid : Nat} {S : Scratch} (hlt : pid < gids.length)
    (he : P.epsilon ≠ 0) (hd : gids.length ≤ S.dim)
    (hQ : ∀ k < gids.length, ∀ s : ℝ, s = P.epsilon ∨ s = -P.epsilon → ∃ f, Q gids (bump T k s) = .ok f) :
    ∃ S', temperatureColumn P Q gids T pid S = .ok S' ∧ S'.dim = S.dim := by
  unfold temperatureColumn
  rw [if_neg (by push Not; exact ⟨hlt, he⟩)]
  obtain ⟨f0, h0⟩ := hQ _ hlt _ (.inr rfl)
  obtain ⟨f1, h1⟩ := hQ _ hlt _ (.inl rfl)
  rw [bump_sub, h0, Outcome.ok_bind]
  change Q gids (Function.update T _ _) = .ok f1 at h1
  rw [h1, Outcome.ok_bind, hP.offset, hP.numDof, Nat.one_mul, Nat.add_zero]
  have := writeColumn_defined (P := P) (n := gids.length) (col := pid) (f1 := f1) (f0 := f0) (S := S) (by omega)
    (by rw [hP.numDof, Nat.one_mul]; exact hd) (Nat.lt_of_lt_of_le hlt hd)
  rw [hP.numDof, Nat.one_mul] at this
  exact this

theorem fit_dim (S : Scratch) (n : Nat) : n ≤ (S.fit n).dim := by
  unfold Scratch.fit
  split
  · exact le_refl _
  · omega

/-- The matrix handed on if all entries have been written. -/
theorem scaled_of {S : Scratch} {n D : Nat} {vol : Nat → ℝ} {g : Nat → Nat → ℝ}
    (h : ∀ r < n, ∀ c < n, S.val r c = some (g r c)) : ∃ L, S.scaled n D vol = .ok L ∧
    ∀ r < n, ∀ c < n, L r c = g r c * vol (r / D) := by
  refine ⟨_, if_pos fun r hr c hc => by rw [h r hr c hc]; rfl, fun r hr c hc => ?_⟩
  rw [h r hr c hc]
  rfl

theorem bondMap_ok {gids : List Nat} (h : 1 < gids.length) : bondMap gids = .ok () := by
  unfold bondMap
  rw [if_neg (by omega)]

theorem bondMap_isolated {gids : List Nat} (h : gids.length ≤ 1) : bondMap gids = .fail .terminate := by
  unfold bondMap
  rw [if_pos h]

theorem bondMap_eq_ok {gids : List Nat} {u : Unit} (h : bondMap gids = .ok u) : 1 < gids.length := by
  by_contra hc
  rw [bondMap_isolated (by omega)] at h
  cases h

theorem localMatrix_mech {P : Settings} (hP : Mechanical P) {K : Kernel} {Q : FluxKernel} {F : Fields}
    {gids : List Nat} {S : Scratch} {r : Scratch × (Nat → Nat → ℝ)} (hn : 0 < gids.length)
    (h : localMatrix P K Q F gids S = .ok r) : ∀ i < 3 * gids.length, ∀ j < 3 * gids.length,
    r.2 i j = mechEntry P K gids (gather 3 gids F.y) (gather 3 gids F.v) i j *
      gather 1 gids F.vol (i / 3) := by
  unfold localMatrix at h
  obtain ⟨_, _, h⟩ := Outcome.bind_eq_ok.1 h
  obtain ⟨S1, h1, h⟩ := Outcome.bind_eq_ok.1 h
  obtain ⟨L, h2, h⟩ := Outcome.bind_eq_ok.1 h
  cases h
  obtain ⟨_, hv⟩ := fold_cells (mechEntry P K gids (gather 3 gids F.y) (gather 3 gids F.v))
    (fun pid r c => r < 3 * gids.length ∧ ∃ dof ∈ List.range 3, c = 3 * pid + dof) (by
      intro S pid S' hs
      unfold perturbPoint at hs
      obtain ⟨S2, hs2, hs⟩ := Outcome.bind_eq_ok.1 hs
      rw [hP.thermal] at hs
      cases hs
      rw [hP.numDisp] at hs2
      obtain ⟨d, v⟩ := fold_cells (mechEntry P K gids (gather 3 gids F.y) (gather 3 gids F.v))
        (fun dof r c => c = 3 * pid + dof ∧ r < 3 * gids.length)
        (fun S dof S' h => by
          obtain ⟨a, b⟩ := displacementColumn_ok hP hn h
          exact ⟨a, fun r c => by rw [b]; congr⟩) _ _ _ hs2
      refine ⟨d, fun r c => ?_⟩
      rw [v]
      have : (∃ dof ∈ List.range 3, c = 3 * pid + dof ∧ r < 3 * gids.length) ↔
          (r < 3 * gids.length ∧ ∃ dof ∈ List.range 3, c = 3 * pid + dof) := by
        constructor
        · rintro ⟨dof, h1, h2, h3⟩; exact ⟨h3, dof, h1, h2⟩
        · rintro ⟨h3, dof, h1, h2⟩; exact ⟨dof, h1, h2, h3⟩
      by_cases hc : (r < 3 * gids.length ∧ ∃ dof ∈ List.range 3, c = 3 * pid + dof)
      · rw [if_pos hc, if_pos (this.2 hc)]
      · rw [if_neg hc, if_neg (fun h => hc (this.1 h))]) _ _ _ h1
  obtain ⟨L', hL', hLv⟩ := scaled_of (S := S1) (n := 3 * gids.length) (D := 3) (vol := gather 1 gids F.vol)
    (g := mechEntry P K gids (gather 3 gids F.y) (gather 3 gids F.v)) (by
      intro r hr c hc
      rw [hv, if_pos]
      obtain ⟨pid, hp, dof, hd, e⟩ := (row_cells (D := 3) hn).2 hc
      exact ⟨pid, hp, hr, dof, hd, e⟩)
  rw [hP.numDof, hL'] at h2
  cases h2
  exact hLv

theorem localMatrix_therm {P : Settings} (hP : Thermal P) {K : Kernel} {Q : FluxKernel} {F : Fields}
    {gids : List Nat} {S : Scratch} {r : Scratch × (Nat → Nat → ℝ)} (hn : 0 < gids.length)
    (h : localMatrix P K Q F gids S = .ok r) : ∀ i < gids.length, ∀ j < gids.length,
    r.2 i j = thermEntry P Q gids (gather 1 gids F.T) i j * gather 1 gids F.vol i := by
  unfold localMatrix at h
  obtain ⟨_, _, h⟩ := Outcome.bind_eq_ok.1 h
  obtain ⟨S1, h1, h⟩ := Outcome.bind_eq_ok.1 h
  obtain ⟨L, h2, h⟩ := Outcome.bind_eq_ok.1 h
  cases h
  obtain ⟨_, hv⟩ := fold_cells (thermEntry P Q gids (gather 1 gids F.T))
    (fun pid r c => c = pid ∧ r < gids.length) (by
      intro S pid S' hs
      unfold perturbPoint at hs
      rw [hP.numDisp, hP.thermal] at hs
      obtain ⟨a, b⟩ := temperatureColumn_ok hP hn hs
      exact ⟨a, fun r c => by rw [b]; congr⟩) _ _ _ h1
  obtain ⟨L', hL', hLv⟩ := scaled_of (S := S1) (n := gids.length) (D := 1) (vol := gather 1 gids F.vol)
    (g := thermEntry P Q gids (gather 1 gids F.T)) (by
      intro r hr c hc
      rw [hv, if_pos]
      exact ⟨c, (mem_visitOrder hn).2 hc, rfl, hr⟩)
  rw [hP.numDof, Nat.one_mul, hL'] at h2
  cases h2
  intro i hi j hj
  have := hLv i hi j hj
  rwa [Nat.div_one] at this

theorem localMatrix_mech_defined {P : Settings} (hP : Mechanical P) {K : Kernel} {Q : FluxKernel}
    {F : Fields} {gids : List Nat} (S : Scratch) (hs : 1 < gids.length)
    (he : P.epsilon ≠ 0) (ht : P.dt ≠ 0)
    (hK : ∀ k < 3 * gids.length, ∀ s : ℝ, s = P.epsilon ∨ s = -P.epsilon →
      ∃ f, K gids (bump (gather 3 gids F.y) k s) (bump (gather 3 gids F.v) k (s / P.dt)) = .ok f) :
    ∃ r, localMatrix P K Q F gids S = .ok r := by
  have hn : 0 < gids.length := by omega
  obtain ⟨S1, h1, d1⟩ := fold_defined (S.fit (P.numDof * gids.length)).dim (visitOrder gids.length)
    (f := perturbPoint P K Q gids (gather 3 gids F.y) (gather 3 gids F.v) (gather 1 gids F.T)) (by
      intro S' pid hp hS'
      unfold perturbPoint
      rw [mem_visitOrder hn] at hp
      obtain ⟨S2, h2, d2⟩ := fold_defined (f := displacementColumn P K gids (gather 3 gids F.y)
        (gather 3 gids F.v) pid) S'.dim (List.range P.numDisplacementDof) (by
          intro S3 dof hdof hS3
          rw [hP.numDisp, List.mem_range] at hdof
          obtain ⟨S4, h4, d4⟩ := displacementColumn_defined hP (S := S3) (pid := pid) (dof := dof) (by omega) he ht (by
            rw [hS3, hS', hP.numDof]; exact fit_dim _ _) hK
          exact ⟨S4, h4, d4.trans hS3⟩) S' rfl
      refine ⟨S2, ?_, d2.trans hS'⟩
      rw [h2, Outcome.ok_bind, hP.thermal]
      rfl) _ rfl
  obtain ⟨_, hv⟩ := fold_cells (mechEntry P K gids (gather 3 gids F.y) (gather 3 gids F.v))
    (fun pid r c => r < 3 * gids.length ∧ ∃ dof ∈ List.range 3, c = 3 * pid + dof) (by
      intro S pid S' hs
      unfold perturbPoint at hs
      obtain ⟨S2, hs2, hs⟩ := Outcome.bind_eq_ok.1 hs
      rw [hP.thermal] at hs
      cases hs
      rw [hP.numDisp] at hs2
      obtain ⟨d, v⟩ := fold_cells (mechEntry P K gids (gather 3 gids F.y) (gather 3 gids F.v))
        (fun dof r c => c = 3 * pid + dof ∧ r < 3 * gids.length)
        (fun S dof S' h => by
          obtain ⟨a, b⟩ := displacementColumn_ok hP hn h
          exact ⟨a, fun r c => by rw [b]; congr⟩) _ _ _ hs2
      refine ⟨d, fun r c => ?_⟩
      rw [v]
      have : (∃ dof ∈ List.range 3, c = 3 * pid + dof ∧ r < 3 * gids.length) ↔
          (r < 3 * gids.length ∧ ∃ dof ∈ List.range 3, c = 3 * pid + dof) := by
        constructor
        · rintro ⟨dof, h1, h2, h3⟩; exact ⟨h3, dof, h1, h2⟩
        · rintro ⟨h3, dof, h1, h2⟩; exact ⟨dof, h1, h2, h3⟩
      by_cases hc : (r < 3 * gids.length ∧ ∃ dof ∈ List.range 3, c = 3 * pid + dof)
      · rw [if_pos hc, if_pos (this.2 hc)]
      · rw [if_neg hc, if_neg (fun h => hc (this.1 h))]) _ _ _ h1
  obtain ⟨L, hL, _⟩ := scaled_of (S := S1) (n := 3 * gids.length) (D := 3) (vol := gather 1 gids F.vol)
    (g := mechEntry P K gids (gather 3 gids F.y) (gather 3 gids F.v)) (by
      intro r hr c hc
      rw [hv, if_pos]
      obtain ⟨pid, hp, dof, hd, e⟩ := (row_cells (D := 3) hn).2 hc
      exact ⟨pid, hp, hr, dof, hd, e⟩)
  refine ⟨(S1, L), ?_⟩
  unfold localMatrix
  rw [bondMap_ok hs, Outcome.ok_bind, h1, Outcome.ok_bind, hP.numDof, hL, Outcome.ok_bind]

theorem localMatrix_therm_defined {P : Settings} (hP : Thermal P) {K : Kernel} {Q : FluxKernel}
    {F : Fields} {gids : List Nat} (S : Scratch) (hs : 1 < gids.length) (he : P.epsilon ≠ 0)
    (hQ : ∀ k < gids.length, ∀ s : ℝ, s = P.epsilon ∨ s = -P.epsilon →
      ∃ f, Q gids (bump (gather 1 gids F.T) k s) = .ok f) :
    ∃ r, localMatrix P K Q F gids S = .ok r := by
  have hn : 0 < gids.length := by omega
  obtain ⟨S1, h1, d1⟩ := fold_defined (S.fit (P.numDof * gids.length)).dim (visitOrder gids.length)
    (f := perturbPoint P K Q gids (gather 3 gids F.y) (gather 3 gids F.v) (gather 1 gids F.T)) (by
      intro S' pid hp hS'
      rw [mem_visitOrder hn] at hp
      obtain ⟨S2, h2, d2⟩ := temperatureColumn_defined hP (S := S') hp he (by
        have := fit_dim S (P.numDof * gids.length)
        rw [hP.numDof, Nat.one_mul] at this hS'
        rw [hS']
        exact this) hQ
      refine ⟨S2, ?_, d2.trans hS'⟩
      unfold perturbPoint
      rw [hP.numDisp, hP.thermal]
      exact h2) _ rfl
  obtain ⟨_, hv⟩ := fold_cells (thermEntry P Q gids (gather 1 gids F.T))
    (fun pid r c => c = pid ∧ r < gids.length) (by
      intro S pid S' hs
      unfold perturbPoint at hs
      rw [hP.numDisp, hP.thermal] at hs
      obtain ⟨a, b⟩ := temperatureColumn_ok hP hn hs
      exact ⟨a, fun r c => by rw [b]; congr⟩) _ _ _ h1
  obtain ⟨L, hL, _⟩ := scaled_of (S := S1) (n := gids.length) (D := 1) (vol := gather 1 gids F.vol)
    (g := thermEntry P Q gids (gather 1 gids F.T)) (by
      intro r hr c hc
      rw [hv, if_pos]
      exact ⟨c, (mem_visitOrder hn).2 hc, rfl, hr⟩)
  refine ⟨(S1, L), ?_⟩
  unfold localMatrix
  rw [bondMap_ok hs, Outcome.ok_bind, h1, Outcome.ok_bind, hP.numDof, Nat.one_mul, hL, Outcome.ok_bind]

end Verif.Tangent
