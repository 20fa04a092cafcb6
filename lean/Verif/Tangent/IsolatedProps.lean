import Verif.Tangent.KindProps

/-!
# C87: a point without neighbors
-/

noncomputable section

namespace Verif.Tangent

open Verif Verif.Neigh Verif.Mech
open scoped Classical

/-! ### Helper lemmas -/

theorem tidy_inverseMap (idx : List Nat) (c : Nat) : Tidy (inverseMap idx c) := by
  unfold inverseMap
  split
  · exact .inl ⟨_, rfl⟩
  · exact .inr rfl

theorem tidy_addRow (S : Nat → ℝ) (r : Nat) (idx : List (Nat × Nat)) (A : Sparse) : Tidy (addRow S r idx A) := by
  refine Tidy.fold (fun A c => ?_) _ _
  unfold Sparse.add
  split
  · exact .inl ⟨_, rfl⟩
  · exact .inr rfl

theorem tidy_addLocal (kind : Kind) (rows : Nat → Prop) (idx : List Nat) (L : Nat → Nat → ℝ) (A : Sparse) :
    Tidy (addLocal kind rows idx L A) := by
  cases kind with
  | full => exact tidy_addValues _ _ _ _
  | blockDiagonal =>
    refine Tidy.fold (fun A r => ?_) _ _
    unfold addBlockDiagonalRow
    exact (tidy_inverseMap _ _).bind fun _ => (tidy_inverseMap _ _).bind fun _ => (tidy_inverseMap _ _).bind fun _ =>
      tidy_addRow _ _ _ _

theorem Tidy.fold_mem {α β : Type} {f : α → β → Outcome α} : ∀ (l : List β), (∀ b ∈ l, ∀ a, Tidy (f a b)) → ∀ (a : α),
    Tidy (l.foldlM f a)
  | [], _, a => .inl ⟨a, rfl⟩
  | b :: l, hf, a => by
    rw [List.foldlM_cons]
    exact (hf b List.mem_cons_self a).bind fun a' => Tidy.fold_mem l (fun b hb => hf b (List.mem_cons_of_mem _ hb)) a'

/-- The loops terminate the program if one of the neighborhoods is that of a point without neighbors. -/
theorem assemble_isolated {P : Settings} {kind : Kind} {K : Kernel} {Q : FluxKernel} {F : Fields} {S : Scratch}
    (parts : List Part) (hv : ∀ p ∈ parts, p.Valid)
    (hm : ∀ h ∈ allHoods parts, 1 < h.length → ∀ S, ∃ r, localMatrix P K Q F h S = .ok r) (hi : ¬ Joined parts) (A : Sparse) :
    assemble P kind K Q F S (parts.map Part.proc) A = .fail .terminate := by
  have tidy : ∀ ps : List Part, (∀ p ∈ ps, p ∈ parts) → ∀ A, Tidy (assemble P kind K Q F S (ps.map Part.proc) A) ∧
      ∀ A', assemble P kind K Q F S (ps.map Part.proc) A = .ok A' → ∀ h ∈ allHoods ps, 1 < h.length := by
    intro ps
    induction ps with
    | nil => exact fun _ A => ⟨.inl ⟨A, rfl⟩, fun _ _ h hh => by cases hh⟩
    | cons p ps ih =>
      intro hps A
      have ih := ih fun q hq => hps q (List.mem_cons_of_mem _ hq)
      have hp := hps p List.mem_cons_self
      rw [List.map_cons]
      unfold assemble finiteDifference
      rw [Part.hoods_ok (hv p hp), Outcome.ok_bind]
      constructor
      · refine Tidy.bind (Tidy.bind (Tidy.fold_mem _ (fun h hh s => ?_) _) fun s => .inl ⟨_, rfl⟩) fun A => (ih A).1
        unfold addPoint
        refine Tidy.bind ?_ fun SL => (tidy_addLocal _ _ _ _ _).bind fun _ => .inl ⟨_, rfl⟩
        by_cases hl : h.length ≤ 1
        · unfold localMatrix
          rw [bondMap_isolated hl]
          exact .inr rfl
        · exact .inl (hm h (List.mem_flatMap.2 ⟨p, hp, hh⟩) (by omega) _)
      · intro A' h h' hh'
        obtain ⟨A1, h1, h2⟩ := Outcome.bind_eq_ok.1 h
        obtain ⟨s, h1, _⟩ := Outcome.bind_eq_ok.1 h1
        obtain ⟨q, hq, hhq⟩ := List.mem_flatMap.1 hh'
        rcases List.mem_cons.1 hq with rfl | hq
        · obtain ⟨t, t', e⟩ := fold_reaches h1 h' hhq
          unfold addPoint localMatrix at e
          obtain ⟨_, e, _⟩ := Outcome.bind_eq_ok.1 e
          obtain ⟨_, e, _⟩ := Outcome.bind_eq_ok.1 e
          exact bondMap_eq_ok e
        · exact (ih A1).2 A' h2 h' (List.mem_flatMap.2 ⟨q, hq, hhq⟩)
  obtain ⟨t1, t2⟩ := tidy parts (fun _ h => h) A
  rcases t1 with ⟨A', hA'⟩ | h
  · exact absurd ((joined_iff hv).2 (t2 A' hA')) hi
  · exact h

/-! ### The property -/

/-- **C87** is false of a mesh with a point that has no neighbor: though its force is zero, the assembly of the tangent, whole
or block diagonal, terminates the program. -/
theorem C87_isolated_terminates (P : Settings) (hP : Mechanical P) (kind : Kind) (he : P.epsilon ≠ 0) (ht : P.dt ≠ 0)
    (K : Kernel) (Q : FluxKernel) (F : Fields) (S : Scratch) (parts : List Part) (hv : ∀ p ∈ parts, p.Valid)
    (hn : ∀ h ∈ allHoods parts, h.Nodup) (hK : Evaluable K F.y F.v P.epsilon P.dt (allHoods parts))
    (hi : ∃ p ∈ parts, [] ∈ p.nbs) (R : Nat → Finset Nat) :
    assemble P kind K Q F S (parts.map Part.proc) (Sparse.zero R) = .fail .terminate :=
  assemble_isolated parts hv (fun h hh hl S => localMatrix_mech_defined hP S hl he ht (evaluable_local hK hh (hn h hh)))
    (fun hj => hi.elim fun p hp => hj p hp.1 [] hp.2 rfl) _

/-- **C87** for the conduction of heat. -/
theorem C87_thermal_isolated_terminates (P : Settings) (hP : Thermal P) (he : P.epsilon ≠ 0)
    (K : Kernel) (Q : FluxKernel) (F : Fields) (S : Scratch) (parts : List Part) (hv : ∀ p ∈ parts, p.Valid)
    (hn : ∀ h ∈ allHoods parts, h.Nodup) (hQ : FluxEvaluable Q F.T P.epsilon (allHoods parts))
    (hi : ∃ p ∈ parts, [] ∈ p.nbs) (R : Nat → Finset Nat) :
    assemble P .full K Q F S (parts.map Part.proc) (Sparse.zero R) = .fail .terminate :=
  assemble_isolated parts hv (fun h hh hl S => localMatrix_therm_defined hP S hl he (fluxEvaluable_local hQ hh (hn h hh)))
    (fun hj => hi.elim fun p hp => hj p hp.1 [] hp.2 rfl) _

/-- Two points that see each other and one that nobody sees. -/
def outlier : List Part := [⟨[0, 1, 2], [[1], [0], []]⟩]

/-- The hypotheses are met: a fragment of one point is enough. -/
example : assemble (settings (1 / 1000) (1 / 10)) .full (spring fun _ => 1) (fun _ _ => .ub)
    ⟨fun _ => 0, fun _ => 0, fun _ => 0, fun _ => 1⟩ fresh (outlier.map Part.proc) (Sparse.zero fun _ => ∅) =
      .fail .terminate := by
  refine C87_isolated_terminates (settings (1 / 1000) (1 / 10)) (settings_mech _ _) .full ?_ ?_ _ _ _ _ outlier ?_ ?_
    (spring_evaluable _ _ _ _ _ _) ⟨_, List.mem_cons_self, by decide⟩ _
  · norm_num [settings]
  · norm_num [settings]
  · unfold Part.Valid Within outlier
    decide
  · rw [show allHoods outlier = [[0, 1], [1, 0], [2]] by decide]
    decide

/-- The force on all three points exists, and is zero on the third. -/
example (Y : Nat → ℝ) : ∃ f, internalForce (spring fun _ => 1) Y (fun _ => 0) (allHoods outlier) = .ok f ∧
    f 6 = 0 ∧ f 7 = 0 ∧ f 8 = 0 := by
  obtain ⟨f, hf⟩ := spring_force (fun _ => 1) Y (fun _ => 0) (allHoods outlier)
  refine ⟨f, hf, ?_⟩
  rw [internalForce_val hf, internalForce_val hf, internalForce_val hf, show allHoods outlier = [[0, 1], [1, 0], [2]] by decide]
  simp only [List.map_cons, List.map_nil, List.sum_cons, List.sum_nil]
  unfold hoodForce spread spring out volAt gather
  simp

example : ∃ P : Settings, Thermal P ∧ P.epsilon ≠ 0 ∧
    FluxEvaluable (fun g T => .ok fun k => T 0 * g.length - T k) (fun _ => 0) P.epsilon (allHoods outlier) :=
  ⟨⟨1, 0, 0, true, 0, 1 / 1000, 1⟩, ⟨rfl, rfl, rfl, rfl⟩, by norm_num, fun _ _ _ _ _ _ => ⟨_, rfl⟩⟩

end Verif.Tangent
