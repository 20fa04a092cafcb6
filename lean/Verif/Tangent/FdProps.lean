import Verif.Tangent.FdAssembly
import Verif.Tangent.SparsityProps

/-!
# The finite-difference tangent (C87, C88)
-/

noncomputable section

namespace Verif.Tangent

open Verif Verif.Neigh Verif.Mech
open scoped Classical

/-! ### Helper lemmas for definedness -/

theorem fold_points_defined {f : Scratch × Sparse → List Nat → Outcome (Scratch × Sparse)}
    {pat : Nat → Finset Nat} {hs : List (List Nat)}
    (hf : ∀ h ∈ hs, ∀ s : Scratch × Sparse, s.2.pattern = pat → ∃ s', f s h = .ok s' ∧ s'.2.pattern = pat) :
    ∀ s : Scratch × Sparse, s.2.pattern = pat → ∃ s', hs.foldlM f s = .ok s' ∧ s'.2.pattern = pat := by
  induction hs with
  | nil => intro s e; exact ⟨s, rfl, e⟩
  | cons h hs ih =>
    intro s e
    obtain ⟨s1, h1, e1⟩ := hf h (List.mem_cons_self ..) s e
    obtain ⟨s2, h2, e2⟩ := ih (fun h hh => hf h (List.mem_cons_of_mem _ hh)) s1 e1
    exact ⟨s2, BC.foldlM_cons_ok.2 ⟨s1, h1, h2⟩, e2⟩

/-- The material can be evaluated in every neighborhood, with one of the points displaced. -/
def Evaluable (K : Kernel) (Y V : Nat → ℝ) (eps dt : ℝ) (hs : List (List Nat)) : Prop :=
  ∀ h ∈ hs, ∀ C, C / 3 ∈ h → ∀ s : ℝ, s = eps ∨ s = -eps →
    ∃ f, K h (gather 3 h (bump Y C s)) (gather 3 h (bump V C (s / dt))) = .ok f

theorem evaluable_local {K : Kernel} {Y V : Nat → ℝ} {eps dt : ℝ} {hs : List (List Nat)}
    (h : Evaluable K Y V eps dt hs) {g : List Nat} (hg : g ∈ hs) (hn : g.Nodup) :
    ∀ k < 3 * g.length, ∀ s : ℝ, s = eps ∨ s = -eps →
      ∃ f, K g (bump (gather 3 g Y) k s) (bump (gather 3 g V) k (s / dt)) = .ok f := by
  intro k hk s hs'
  have hlt : k / 3 < g.length := by omega
  have e : (3 * g[k / 3] + k % 3) / 3 = g[k / 3] := by omega
  have hm : (3 * g[k / 3] + k % 3) / 3 ∈ g := by rw [e]; exact List.getElem_mem _
  have hsl : slot 3 g (3 * g[k / 3] + k % 3) = k := by
    unfold slot
    rw [e, hn.idxOf_getElem]
    omega
  obtain ⟨f, hf⟩ := h g hg _ hm s hs'
  rw [gather_bump_in (by omega) hn hm, gather_bump_in (by omega) hn hm, hsl] at hf
  exact ⟨f, hf⟩

/-- Assembly into the allocated matrix, given the local matrices. -/
theorem assemble_defined (P : Settings) (hD : 0 < P.numDof) (K : Kernel) (Q : FluxKernel) (F : Fields) (S : Scratch)
    (parts : List Part) (hv : ∀ p ∈ parts, p.Valid) (hn : ∀ h ∈ allHoods parts, h.Nodup)
    (hmat : ∀ h ∈ allHoods parts, ∀ S, ∃ r, localMatrix P K Q F h S = .ok r) :
    ∃ R A, allocate P.numDof (parts.map Part.proc) = .ok R ∧
      assemble P .full K Q F S (parts.map Part.proc) (Sparse.zero R) = .ok A := by
  obtain ⟨R, hR, hm⟩ := allocate_ok P.numDof parts hv
  have step : ∀ ps : List Part, (∀ p ∈ ps, p ∈ parts) → ∀ A : Sparse, A.pattern = R →
      ∃ A', assemble P .full K Q F S (ps.map Part.proc) A = .ok A' := by
    intro ps
    induction ps with
    | nil => intro _ A _; exact ⟨A, rfl⟩
    | cons p ps ih =>
      intro hps A hA
      have hp := hps p (List.mem_cons_self ..)
      obtain ⟨s, h1, e1⟩ := fold_points_defined (pat := R) (hs := p.hoods)
        (f := addPoint P .full K Q F (p.proc.rows P.numDof)) (by
          intro h hh s es
          have hall : h ∈ allHoods parts := List.mem_flatMap.2 ⟨p, hp, hh⟩
          obtain ⟨r, hr⟩ := hmat h hall s.1
          obtain ⟨A', hA'⟩ := addValues_defined (rows := p.proc.rows P.numDof) (idx := dofIds P.numDof h) (L := r.2)
            (A := s.2)
            (by
              intro c hc
              obtain ⟨q, ns, hq, rfl⟩ := mem_hoods.1 hh
              obtain ⟨hlt, _⟩ := List.getElem?_eq_some_iff.1 hq
              have hlt' := Nat.lt_of_lt_of_le hlt (hv p hp).1
              have hd : P.numDof * p.overlap[q] / P.numDof = p.overlap[q] := Nat.mul_div_cancel_left _ hD
              refine ⟨P.numDof * p.overlap[q], ?_, ?_⟩
              · unfold Proc.rows
                rw [hd]
                exact List.mem_take_iff_getElem.2 ⟨q, lt_min hlt hlt', rfl⟩
              · rw [es, hm]
                refine ⟨_, hall, mem_dofIds.2 ⟨hD, ?_⟩, hc⟩
                rw [hd]
                exact mem_hood.2 (.inl (List.getElem?_eq_getElem hlt')))
            (by
              intro r hr c hc
              rw [es, hm]
              exact ⟨h, hall, hr, hc⟩)
          refine ⟨(r.1, A'), ?_, ?_⟩
          · unfold addPoint
            rw [hr, Outcome.ok_bind]
            show (addValues (p.proc.rows P.numDof) (dofIds P.numDof h) r.2 s.2 >>= _) = _
            rw [hA', Outcome.ok_bind]
          · exact (addValues_ok (dofIds_nodup (hn h hall)) hA').1.trans es) (S, A) hA
      obtain ⟨A', h2⟩ := ih (fun q hq => hps q (List.mem_cons_of_mem _ hq)) s.2 e1
      refine ⟨A', ?_⟩
      rw [List.map_cons]
      unfold assemble finiteDifference
      rw [Part.hoods_ok (hv p hp), Outcome.ok_bind, h1, Outcome.ok_bind, Outcome.ok_bind]
      exact h2
  obtain ⟨A, hA⟩ := step parts (fun _ h => h) (Sparse.zero R) rfl
  exact ⟨R, A, hR, hA⟩

/-- **C87**: if every point has a neighbor, a finite-difference tangent can always be assembled with the sparsity that
is allocated: no entry is missing in the matrix, no array is overrun and nothing is read before it is written, whatever the
scratch matrix holds from before. -/
theorem C87_assembly_defined_partial (P : Settings) (hP : Mechanical P) (he : P.epsilon ≠ 0) (ht : P.dt ≠ 0)
    (K : Kernel) (Q : FluxKernel) (F : Fields) (S : Scratch) (parts : List Part) (hv : ∀ p ∈ parts, p.Valid)
    (hn : ∀ h ∈ allHoods parts, h.Nodup) (hK : Evaluable K F.y F.v P.epsilon P.dt (allHoods parts)) (hj : Joined parts) :
    ∃ R A, allocate 3 (parts.map Part.proc) = .ok R ∧
      assemble P .full K Q F S (parts.map Part.proc) (Sparse.zero R) = .ok A := by
  have := assemble_defined P (by rw [hP.numDof]; omega) K Q F S parts hv hn (fun h hh S =>
    localMatrix_mech_defined hP S ((joined_iff hv).1 hj h hh) he ht (evaluable_local hK hh (hn h hh)))
  rw [hP.numDof] at this
  exact this

/-- The flux can be evaluated in every neighborhood, with the temperature of one of the points changed. -/
def FluxEvaluable (Q : FluxKernel) (T : Nat → ℝ) (eps : ℝ) (hs : List (List Nat)) : Prop :=
  ∀ h ∈ hs, ∀ C ∈ h, ∀ s : ℝ, s = eps ∨ s = -eps → ∃ f, Q h (gather 1 h (bump T C s)) = .ok f

theorem fluxEvaluable_local {Q : FluxKernel} {T : Nat → ℝ} {eps : ℝ} {hs : List (List Nat)}
    (h : FluxEvaluable Q T eps hs) {g : List Nat} (hg : g ∈ hs) (hn : g.Nodup) :
    ∀ k < g.length, ∀ s : ℝ, s = eps ∨ s = -eps → ∃ f, Q g (bump (gather 1 g T) k s) = .ok f := by
  intro k hk s hs'
  have hm : g[k] / 1 ∈ g := by rw [Nat.div_one]; exact List.getElem_mem _
  have hsl : slot 1 g g[k] = k := by
    unfold slot
    rw [Nat.div_one, hn.idxOf_getElem]
    omega
  obtain ⟨f, hf⟩ := h g hg g[k] (List.getElem_mem _) s hs'
  rw [gather_bump_in (by omega) hn hm, hsl] at hf
  exact ⟨f, hf⟩

/-- **C87** for the conduction of heat. -/
theorem C87_thermal_defined_partial (P : Settings) (hP : Thermal P) (he : P.epsilon ≠ 0)
    (K : Kernel) (Q : FluxKernel) (F : Fields) (S : Scratch) (parts : List Part) (hv : ∀ p ∈ parts, p.Valid)
    (hn : ∀ h ∈ allHoods parts, h.Nodup) (hQ : FluxEvaluable Q F.T P.epsilon (allHoods parts)) (hj : Joined parts) :
    ∃ R A, allocate 1 (parts.map Part.proc) = .ok R ∧
      assemble P .full K Q F S (parts.map Part.proc) (Sparse.zero R) = .ok A := by
  have := assemble_defined P (by rw [hP.numDof]; omega) K Q F S parts hv hn (fun h hh S =>
    localMatrix_therm_defined hP S ((joined_iff hv).1 hj h hh) he (fluxEvaluable_local hQ hh (hn h hh)))
  rw [hP.numDof] at this
  exact this

/-- **C88**: the entry of the assembled tangent for a component of point `I` and one of point `J` is the
volume of point `I` times the central difference quotient of the force density that all neighborhoods together
exert on `I`, under a displacement of `J` that happens within the step. -/
theorem C88_central_difference (P : Settings) (hP : Mechanical P) (K : Kernel) (Q : FluxKernel) (F : Fields)
    (S : Scratch) (parts : List Part) (hv : ∀ p ∈ parts, p.Valid) (hn : ∀ h ∈ allHoods parts, h.Nodup)
    (R : Nat → Finset Nat) (A : Sparse)
    (h : assemble P .full K Q F S (parts.map Part.proc) (Sparse.zero R) = .ok A)
    (I J a b : Nat) (ha : a < 3) (hb : b < 3) (f1 f0 : Nat → ℝ)
    (h1 : internalForce K (bump F.y (3 * J + b) P.epsilon) (bump F.v (3 * J + b) (P.epsilon / P.dt))
      (allHoods parts) = .ok f1)
    (h0 : internalForce K (bump F.y (3 * J + b) (-P.epsilon)) (bump F.v (3 * J + b) (-(P.epsilon / P.dt)))
      (allHoods parts) = .ok f0) :
    A.val (3 * I + a) (3 * J + b) =
      F.vol I * ((f1 (3 * I + a) - f0 (3 * I + a)) / (2 * P.epsilon)) := by
  have := assemble_val (R := 3 * I + a) (C := 3 * J + b) hv (fun g hg rows s s' e => by
    have := (addPoint_mech hP (hn g hg) (allHoods_pos hv hg) e).2 (3 * I + a) (3 * J + b)
    rw [if_pos (show Kept .full _ _ from trivial)] at this
    exact this) h
  rw [this, sum_quotient, internalForce_val h1, internalForce_val h0]
  have e : (3 * I + a) / 3 = I := by omega
  rw [e]
  simp [Sparse.zero]

/-- **C88** for the block diagonal: it consists of the entries of the full tangent that couple the
components of a point with each other. -/
theorem C88_block_diagonal (P : Settings) (hP : Mechanical P) (K : Kernel) (Q : FluxKernel) (F : Fields)
    (S S' : Scratch) (parts : List Part) (hv : ∀ p ∈ parts, p.Valid) (hn : ∀ h ∈ allHoods parts, h.Nodup)
    (R R' : Nat → Finset Nat) (A B : Sparse)
    (hA : assemble P .full K Q F S (parts.map Part.proc) (Sparse.zero R) = .ok A)
    (hB : assemble P .blockDiagonal K Q F S' (parts.map Part.proc) (Sparse.zero R') = .ok B)
    (I J a b : Nat) (ha : a < 3) (hb : b < 3) :
    B.val (3 * I + a) (3 * J + b) = if I = J then A.val (3 * I + a) (3 * J + b) else 0 := by
  have e1 : (3 * I + a) / 3 = I := by omega
  have e2 : (3 * J + b) / 3 = J := by omega
  have vA := assemble_val (R := 3 * I + a) (C := 3 * J + b) hv (fun g hg rows s s' e => by
    have := (addPoint_mech hP (hn g hg) (allHoods_pos hv hg) e).2 (3 * I + a) (3 * J + b)
    rw [if_pos (show Kept .full _ _ from trivial)] at this
    exact this) hA
  have vB := assemble_val (R := 3 * I + a) (C := 3 * J + b) hv (fun g hg rows s s' e =>
    (addPoint_mech hP (hn g hg) (allHoods_pos hv hg) e).2 (3 * I + a) (3 * J + b)) hB
  by_cases hIJ : I = J
  · have hk : Kept .blockDiagonal (3 * I + a) (3 * J + b) := by
      show (3 * J + b) / 3 = (3 * I + a) / 3
      rw [e1, e2, hIJ]
    rw [if_pos hIJ, vA, vB]
    simp only [if_pos hk]
    rfl
  · have hk : ¬ Kept .blockDiagonal (3 * I + a) (3 * J + b) := by
      intro h
      have : (3 * J + b) / 3 = (3 * I + a) / 3 := h
      rw [e1, e2] at this
      exact hIJ this.symm
    rw [if_neg hIJ, vB]
    simp only [if_neg hk]
    simp [Sparse.zero]

/-- **C88** for the conduction of heat, where the unknowns are the temperatures. -/
theorem C88_thermal (P : Settings) (hP : Thermal P) (K : Kernel) (Q : FluxKernel) (F : Fields)
    (S : Scratch) (parts : List Part) (hv : ∀ p ∈ parts, p.Valid) (hn : ∀ h ∈ allHoods parts, h.Nodup)
    (R : Nat → Finset Nat) (A : Sparse)
    (h : assemble P .full K Q F S (parts.map Part.proc) (Sparse.zero R) = .ok A) (I J : Nat) (f1 f0 : Nat → ℝ)
    (h1 : fluxDivergence Q (bump F.T J P.epsilon) (allHoods parts) = .ok f1)
    (h0 : fluxDivergence Q (bump F.T J (-P.epsilon)) (allHoods parts) = .ok f0) :
    A.val I J = F.vol I * ((f1 I - f0 I) / (2 * P.epsilon)) := by
  have := assemble_val (R := I) (C := J) hv (fun g hg rows s s' e =>
    (addPoint_therm hP (hn g hg) (allHoods_pos hv hg) e).2 I J) h
  rw [this, sum_quotient, fluxDivergence_val h1, fluxDivergence_val h0]
  simp [Sparse.zero]

end Verif.Tangent
