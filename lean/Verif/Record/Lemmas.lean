import Verif.Record.Spec
import Verif.Setup.ComputeProps

/-!
# Lemmas for C248
-/

namespace Verif.Record

open Verif Verif.Field Verif.Setup

/-! ### Sequences of assignments -/

section seq
variable {Q V : Type}

/-- The assignment writes a field that nothing before depends on or has written. -/
def Fresh (pre : List (Assign Q)) (b : Assign Q) : Prop :=
  b.target ∉ b.deps ∧ ∀ a ∈ pre, b.target ≠ a.target ∧ b.target ∉ a.deps

/-- Every assignment is a repetition or fresh. -/
def Good : List (Assign Q) → List (Assign Q) → Prop
  | _, [] => True
  | pre, b :: l => (b ∈ pre ∨ Fresh pre b) ∧ Good (pre ++ [b]) l

theorem good_append (pre l₁ l₂ : List (Assign Q)) : Good pre (l₁ ++ l₂) ↔ Good pre l₁ ∧ Good (pre ++ l₁) l₂ := by
  induction l₁ generalizing pre with
  | nil => simp [Good]
  | cons b l ih =>
    rw [List.cons_append, Good, Good, ih, and_assoc, List.append_assoc, List.singleton_append]

theorem assign_agrees {sem : Assign Q → (String → V) → V} {s : String → V} {a : Assign Q} (h : Agrees sem s a) :
    assign sem s a = s := by
  funext f
  rw [assign]
  split
  · next hf => rw [hf, h]
  · rfl

theorem assign_keeps {sem : Assign Q → (String → V) → V} (hl : Local sem) {s : String → V} {pre : List (Assign Q)}
    {b : Assign Q} (h : ∀ a ∈ pre, Agrees sem s a) (hb : b ∈ pre ∨ Fresh pre b) :
    ∀ a ∈ pre ++ [b], Agrees sem (assign sem s b) a := by
  intro a ha
  by_cases hm : b ∈ pre
  · rw [assign_agrees (h b hm)]
    rcases List.mem_append.1 ha with ha | ha
    · exact h a ha
    · rw [List.mem_singleton.1 ha]
      exact h b hm
  · obtain ⟨h1, h2⟩ := hb.resolve_left hm
    have hs : ∀ d, d ≠ b.target → assign sem s b d = s d := fun d hd => if_neg hd
    rcases List.mem_append.1 ha with ha | ha
    · rw [Agrees, hs _ (h2 a ha).1.symm, h a ha]
      refine hl a _ _ fun d hd => (hs d ?_).symm
      rintro rfl
      exact (h2 a ha).2 hd
    · rw [List.mem_singleton.1 ha, Agrees]
      show (if b.target = b.target then sem b s else s b.target) = _
      rw [if_pos rfl]
      refine hl b _ _ fun d hd => (hs d ?_).symm
      rintro rfl
      exact h1 hd

theorem good_agrees {sem : Assign Q → (String → V) → V} (hl : Local sem) (l : List (Assign Q)) (pre : List (Assign Q))
    (s : String → V) (h : ∀ a ∈ pre, Agrees sem s a) (hg : Good pre l) :
    ∀ a ∈ pre ++ l, Agrees sem (l.foldl (assign sem) s) a := by
  induction l generalizing pre s with
  | nil => simpa using h
  | cons b l ih =>
    have := ih (pre ++ [b]) (assign sem s b) (assign_keeps hl h hg.1) hg.2
    simpa using this

theorem foldl_agrees {sem : Assign Q → (String → V) → V} (l : List (Assign Q)) (s : String → V)
    (h : ∀ a ∈ l, Agrees sem s a) : l.foldl (assign sem) s = s := by
  induction l with
  | nil => rfl
  | cons b l ih =>
    rw [List.foldl_cons, assign_agrees (h b (List.mem_cons_self ..))]
    exact ih fun a ha => h a (List.mem_cons_of_mem _ ha)

theorem foldl_other {sem : Assign Q → (String → V) → V} (l : List (Assign Q)) (s : String → V) (f : String)
    (h : ∀ a ∈ l, a.target ≠ f) : l.foldl (assign sem) s f = s f := by
  induction l generalizing s with
  | nil => rfl
  | cons b l ih =>
    rw [List.foldl_cons, ih _ fun a ha => h a (List.mem_cons_of_mem _ ha), assign,
      if_neg (h b (List.mem_cons_self ..)).symm]

end seq

/-! ### The assignments of the classes -/

section classes
variable {Q : Type}

/-- All of them. -/
def table (mat : List String) : List (Assign Q) :=
  [⟨"Acceleration", ["Force_Density"], none⟩,
   ⟨"Global_Angular_Momentum", ["Volume", "Coordinates", "Velocity"], none⟩,
   ⟨"Angular_Momentum", ["Volume", "Coordinates", "Velocity"], none⟩,
   ⟨"Linear_Momentum", ["Volume", "Velocity"], none⟩, ⟨"Global_Linear_Momentum", ["Volume", "Velocity"], none⟩,
   ⟨"Global_Kinetic_Energy", ["Volume", "Velocity"], none⟩, ⟨"Kinetic_Energy", ["Volume", "Velocity"], none⟩,
   ⟨"Contact_Force", ["Volume", "Contact_Force_Density"], none⟩, ⟨"Force", ["Volume", "Force_Density"], none⟩,
   ⟨"Shape_Tensor_Inverse", ["Volume", "Horizon", "Model_Coordinates"], none⟩,
   ⟨"Deformation_Gradient", ["Volume", "Horizon", "Model_Coordinates", "Coordinates"], none⟩,
   ⟨"Stored_Elastic_Energy_Density", mat, none⟩,
   ⟨"Stored_Elastic_Energy", ["Stored_Elastic_Energy_Density", "Volume"], none⟩,
   ⟨"Nonlinear_Solver_Iterations", [], none⟩]

/-- The fields they write. -/
def targets : List String :=
  ["Acceleration", "Global_Angular_Momentum", "Angular_Momentum", "Linear_Momentum", "Global_Linear_Momentum",
    "Global_Kinetic_Energy", "Kinetic_Energy", "Contact_Force", "Force", "Shape_Tensor_Inverse",
    "Deformation_Gradient", "Stored_Elastic_Energy_Density", "Stored_Elastic_Energy", "Nonlinear_Solver_Iterations"]

theorem table_targets (mat : List String) : (table (Q := Q) mat).map Assign.target = targets := rfl

theorem targets_nodup : targets.Nodup := by decide

theorem target_inj (mat : List String) {a b : Assign Q} (ha : a ∈ table mat) (hb : b ∈ table mat)
    (h : a.target = b.target) : a = b := by
  have hn : ((table (Q := Q) mat).map Assign.target).Nodup := targets_nodup
  exact List.inj_on_of_nodup_map hn ha hb h

theorem target_mem {mat : List String} {a : Assign Q} (ha : a ∈ table mat) : a.target ∈ targets := by
  rw [← table_targets mat]
  exact List.mem_map_of_mem ha

/-- The two assignments of the stored elastic energy. -/
def density (mat : List String) : Assign Q := ⟨"Stored_Elastic_Energy_Density", mat, none⟩

/-- The second. -/
def energy : Assign Q := ⟨"Stored_Elastic_Energy", ["Stored_Elastic_Energy_Density", "Volume"], none⟩

theorem dep_target {mat : List String} (hm : ∀ d ∈ mat, d ∉ targets) {a : Assign Q} (ha : a ∈ table mat) (t : String)
    (ht : t ∈ targets) (hd : t ∈ a.deps) : t = "Stored_Elastic_Energy_Density" ∧ a = energy := by
  have key : ∀ l : List String, (∀ d ∈ l, d ∉ targets) → t ∈ l → False := fun l h hl => h t hl ht
  simp only [table, List.mem_cons, List.not_mem_nil, or_false] at ha
  rcases ha with rfl | rfl | rfl | rfl | rfl | rfl | rfl | rfl | rfl | rfl | rfl | rfl | rfl | rfl
  case inr.inr.inr.inr.inr.inr.inr.inr.inr.inr.inr.inl => exact (key _ hm hd).elim
  case inr.inr.inr.inr.inr.inr.inr.inr.inr.inr.inr.inr.inl =>
    refine ⟨?_, rfl⟩
    simp only [List.mem_cons, List.not_mem_nil, or_false] at hd
    rcases hd with rfl | rfl
    · rfl
    · exact absurd ht (by decide)
  all_goals exact (key _ (by dsimp only; decide) hd).elim

theorem classAssigns_entry {mat : List String} {cls : String} {a : Assign Q} (ha : a ∈ classAssigns mat cls) :
    ∃ e ∈ assignTable (Q := Q) mat, classAssigns mat cls = e.2 := by
  rw [classAssigns] at ha ⊢
  split at ha
  · next e he => exact ⟨e, List.mem_of_find?_eq_some he, rfl⟩
  · exact absurd ha List.not_mem_nil

theorem classAssigns_mem {mat : List String} {cls : String} {a : Assign Q} (ha : a ∈ classAssigns mat cls) :
    a ∈ table mat := by
  obtain ⟨e, he, h⟩ := classAssigns_entry ha
  rw [h] at ha
  simp only [assignTable, List.mem_cons, List.not_mem_nil, or_false] at he
  rcases he with rfl | rfl | rfl | rfl | rfl | rfl | rfl | rfl | rfl | rfl | rfl | rfl | rfl <;>
    simp only [List.mem_cons, List.not_mem_nil, or_false] at ha <;>
    first
      | (rcases ha with rfl | rfl <;> simp [table])
      | (rw [ha]; simp [table])

/-- What holds of the assignments made so far: they are those of the table, and the energy comes with its density. -/
def Class (mat : List String) (pre : List (Assign Q)) : Prop :=
  (∀ a ∈ pre, a ∈ table mat) ∧ (energy ∈ pre → density mat ∈ pre)

theorem class_step {mat : List String} (hm : ∀ d ∈ mat, d ∉ targets) {pre : List (Assign Q)} (hc : Class mat pre)
    {b : Assign Q} (hb : b ∈ table mat) (hbe : b = energy → density mat ∈ pre) :
    (b ∈ pre ∨ Fresh pre b) ∧ Class mat (pre ++ [b]) := by
  constructor
  · by_cases hbp : b ∈ pre
    · exact .inl hbp
    · refine .inr ⟨?_, fun a ha => ⟨?_, ?_⟩⟩
      · intro h
        obtain ⟨h1, h2⟩ := dep_target hm hb _ (target_mem hb) h
        rw [h2] at h1
        exact absurd h1 (by simp [energy])
      · intro h
        exact hbp (target_inj mat hb (hc.1 a ha) h ▸ ha)
      · intro h
        obtain ⟨h1, h2⟩ := dep_target hm (hc.1 a ha) _ (target_mem hb) h
        have : b = density mat := target_inj mat hb (by simp [table, density]) h1
        rw [this] at hbp
        rw [h2] at ha
        exact hbp (hc.2 ha)
  · constructor
    · intro a ha
      rcases List.mem_append.1 ha with ha | ha
      · exact hc.1 a ha
      · rw [List.mem_singleton.1 ha]
        exact hb
    · intro h
      rw [List.mem_append]
      rcases List.mem_append.1 h with h | h
      · exact .inl (hc.2 h)
      · exact .inl (hbe (List.mem_singleton.1 h).symm)

theorem class_list {mat : List String} (hm : ∀ d ∈ mat, d ∉ targets) (l : List (Assign Q)) (pre : List (Assign Q))
    (hc : Class mat pre) (hl : ∀ b ∈ l, b ∈ table mat)
    (he : ∀ p q, l = p ++ energy :: q → density mat ∈ pre ++ p) : Good pre l ∧ Class mat (pre ++ l) := by
  induction l generalizing pre with
  | nil => exact ⟨trivial, by simpa using hc⟩
  | cons b l ih =>
    have hbe : b = energy → density mat ∈ pre := by
      rintro rfl
      simpa using he [] l rfl
    obtain ⟨h1, h2⟩ := class_step hm hc (hl b (List.mem_cons_self ..)) hbe
    obtain ⟨h3, h4⟩ := ih (pre ++ [b]) h2 (fun x hx => hl x (List.mem_cons_of_mem _ hx)) (by
      intro p q hq
      have := he (b :: p) q (by rw [hq]; rfl)
      simpa using this)
    exact ⟨⟨h1, h3⟩, by simpa using h4⟩

theorem energy_mem {mat : List String} {cls : String} (ha : (energy : Assign Q) ∈ classAssigns mat cls) :
    classAssigns (Q := Q) mat cls = [density mat, energy] := by
  obtain ⟨e, he, h⟩ := classAssigns_entry ha
  rw [h] at ha ⊢
  simp only [assignTable, List.mem_cons, List.not_mem_nil, or_false] at he
  rcases he with rfl | rfl | rfl | rfl | rfl | rfl | rfl | rfl | rfl | rfl | rfl | rfl | rfl <;>
    first
      | rfl
      | simp [energy] at ha

theorem classAssigns_energy {mat : List String} {cls : String} (p q : List (Assign Q))
    (h : classAssigns mat cls = p ++ energy :: q) : density mat ∈ p := by
  have := energy_mem (h ▸ (by simp) : (energy : Assign Q) ∈ classAssigns mat cls)
  rw [this] at h
  cases p with
  | nil =>
    have := (List.cons.inj h).1
    simp [density, energy] at this
  | cons x p =>
    rw [(List.cons.inj h).1]
    exact List.mem_cons_self ..

theorem class_objects {mat : List String} (hm : ∀ d ∈ mat, d ∉ targets) (A : List (ComputeObject (Params Q)))
    (hA : ∀ o ∈ A, reduces o.cls = false) (pre : List (Assign Q)) (hc : Class mat pre) :
    Good pre (A.flatMap (assigns mat)) ∧ Class mat (pre ++ A.flatMap (assigns mat)) := by
  induction A generalizing pre with
  | nil => exact ⟨trivial, by simpa using hc⟩
  | cons o A ih =>
    have ho : assigns mat o = classAssigns mat o.cls := by
      rw [assigns, hA o (List.mem_cons_self ..)]
      rfl
    obtain ⟨h1, h2⟩ := class_list hm (classAssigns mat o.cls) pre hc (fun b hb => classAssigns_mem hb)
      (fun p q h => List.mem_append_right _ (classAssigns_energy p q h))
    obtain ⟨h3, h4⟩ := ih (fun x hx => hA x (List.mem_cons_of_mem _ hx)) _ h2
    rw [List.flatMap_cons, ho, good_append]
    exact ⟨⟨h1, h3⟩, by simpa using h4⟩

end classes

end Verif.Record
