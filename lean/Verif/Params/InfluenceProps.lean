import Verif.Params.Spec
import Verif.BC.Lemmas
import Mathlib.Tactic.Linarith
import Mathlib.Tactic.FieldSimp
import Mathlib.Tactic.Positivity
import Mathlib.Tactic.NormNum
import Mathlib.Topology.Instances.Real.Lemmas
import Mathlib.Topology.Piecewise
import Mathlib.Topology.Order.OrderClosed

/-!
# Influence functions (C51)
-/

noncomputable section

namespace Verif.Params

open Verif
open scoped Classical

/-- **C51**: within the horizon the built-in influence functions are defined and lie between zero and
one. -/
theorem C51_bounded (zeta horizon : ℝ) (h0 : 0 ≤ zeta) (h1 : zeta ≤ horizon) (hh : 0 < horizon) :
    (∃ w, one zeta horizon = .ok w ∧ 0 ≤ w ∧ w ≤ 1) ∧
    (∃ w, parabolicDecay zeta horizon = .ok w ∧ 0 ≤ w ∧ w ≤ 1) ∧
    (∃ w, gaussian zeta horizon = .ok w ∧ 0 < w ∧ w ≤ 1) := by
  refine ⟨⟨1, rfl, by norm_num, le_refl _⟩, ⟨if zeta / horizon < 0.5 then 1
      else -4 * (zeta / horizon) * (zeta / horizon) + 4 * (zeta / horizon), ?_, ?_⟩,
    ⟨Real.exp (-(zeta * zeta) / (horizon * horizon * 0.4 * 0.4)), ?_, Real.exp_pos _, ?_⟩⟩
  · unfold parabolicDecay
    rw [if_neg (not_lt.mpr h1), if_neg hh.ne']
  · have hs0 : 0 ≤ zeta / horizon := div_nonneg h0 hh.le
    have hs1 : zeta / horizon ≤ 1 := (div_le_one hh).mpr h1
    split
    · norm_num
    · constructor
      · nlinarith
      · nlinarith [sq_nonneg (2 * (zeta / horizon) - 1)]
  · unfold gaussian
    rw [if_neg (by positivity)]
  · rw [Real.exp_le_one_iff]
    apply div_nonpos_of_nonpos_of_nonneg
    · nlinarith [mul_self_nonneg zeta]
    · positivity

example : (0 : ℝ) ≤ 1 ∧ (1 : ℝ) ≤ 2 ∧ (0 : ℝ) < 2 := by norm_num

/-- **C51**: the parabolic-decay function is the values of a continuous function of the bond length that
is one up to half the horizon, never increases, and vanishes at the horizon and beyond. -/
theorem C51_parabolic (horizon : ℝ) (hh : 0 < horizon) : ∃ f : ℝ → ℝ,
    (∀ zeta, parabolicDecay zeta horizon = .ok (f zeta)) ∧ Continuous f ∧ Antitone f ∧
    (∀ zeta, zeta ≤ horizon / 2 → f zeta = 1) ∧ (∀ zeta, horizon ≤ zeta → f zeta = 0) ∧
    (∀ zeta, horizon / 2 ≤ zeta → zeta < horizon → 0 < f zeta) := by
  have key : ∀ s : ℝ, (if s < 0.5 then (1 : ℝ) else -4 * s * s + 4 * s) =
      1 - (max 0 (2 * s - 1)) ^ 2 := by
    intro s
    split
    · rename_i h
      rw [max_eq_left (by norm_num at h; linarith)]; norm_num
    · rename_i h
      rw [max_eq_right (by norm_num at h; linarith)]; ring
  refine ⟨fun zeta => 1 - (max 0 (min 1 (2 * (zeta / horizon) - 1))) ^ 2, ?_, ?_, ?_, ?_, ?_, ?_⟩
  · intro zeta
    unfold parabolicDecay
    beta_reduce
    split
    · rename_i h
      have : 1 ≤ 2 * (zeta / horizon) - 1 := by
        have := (one_le_div hh).mpr h.le; linarith
      rw [min_eq_left this, max_eq_right zero_le_one]
      norm_num
    · rename_i h
      have : 2 * (zeta / horizon) - 1 ≤ 1 := by
        have := (div_le_one hh).mpr (not_lt.mp h); linarith
      rw [if_neg hh.ne', key, min_eq_right this]
  · fun_prop
  · intro a b hab
    have h1 : a / horizon ≤ b / horizon := div_le_div_of_nonneg_right hab hh.le
    have h2 : max 0 (min 1 (2 * (a / horizon) - 1)) ≤ max 0 (min 1 (2 * (b / horizon) - 1)) :=
      max_le_max (le_refl _) (min_le_min (le_refl _) (by linarith))
    have h3 : (0 : ℝ) ≤ max 0 (min 1 (2 * (a / horizon) - 1)) := le_max_left _ _
    simp only
    nlinarith
  · intro zeta h
    have : 2 * (zeta / horizon) - 1 ≤ 0 := by
      have := (div_le_div_iff_of_pos_right hh).mpr h
      have e : horizon / 2 / horizon = 1 / 2 := by field_simp
      rw [e] at this; linarith
    simp only
    rw [max_eq_left ((min_le_right _ _).trans this)]
    norm_num
  · intro zeta h
    have : 1 ≤ 2 * (zeta / horizon) - 1 := by
      have := (one_le_div hh).mpr h; linarith
    simp only
    rw [min_eq_left this, max_eq_right zero_le_one]
    norm_num
  · intro zeta h1 h2
    have : 2 * (zeta / horizon) - 1 < 1 := by
      have := (div_lt_one hh).mpr h2; linarith
    have h3 : max 0 (min 1 (2 * (zeta / horizon) - 1)) < 1 :=
      max_lt one_pos (lt_of_le_of_lt (min_le_right _ _) this)
    have h4 : (0 : ℝ) ≤ max 0 (min 1 (2 * (zeta / horizon) - 1)) := le_max_left _ _
    simp only
    nlinarith

example : ∃ f : ℝ → ℝ, (∀ zeta, parabolicDecay zeta 3 = .ok (f zeta)) ∧ f 3 = 0 ∧ f 1 = 1 := by
  obtain ⟨f, h1, _, _, h4, h5, _⟩ := C51_parabolic 3 (by norm_num)
  exact ⟨f, h1, h5 3 (le_refl _), h4 1 (by norm_num)⟩

/-! ### Selection -/

/-- A step of a process: selecting an influence function, or evaluating it. -/
inductive Op where
  | select (name : String)
  | evaluate (zeta horizon : ℝ)

/-- Running a sequence of steps; the results of evaluations are listed. -/
def runOps (compiles : String → Bool) (rtc : Compiler2) :
    Influence → List Op → Outcome (List ℝ × Influence)
  | s, [] => .ok ([], s)
  | s, .select n :: l => do
    let s' ← s.select compiles n
    runOps compiles rtc s' l
  | s, .evaluate z h :: l => do
    let (w, s') ← s.scalar rtc z h
    let (ws, t) ← runOps compiles rtc s' l
    .ok (w :: ws, t)

/-- The function a name stands for. -/
def meant (rtc : Compiler2) (name : String) (zeta horizon : ℝ) : Outcome ℝ :=
  if name = "One" then one zeta horizon
  else if name = "Parabolic Decay" then parabolicDecay zeta horizon
  else if name = "Gaussian" then gaussian zeta horizon
  else .ok ((rtc name zeta horizon).getD 0)

/-- After a selection that fits the cache, evaluations give the selected function. -/
def Fits (s : Influence) (name : String) : Prop :=
  s.pointer = s.selected ∧
  (name = "One" → s.selected = .one) ∧ (name = "Parabolic Decay" → s.selected = .parabolic) ∧
  (name = "Gaussian" → s.selected = .gaussian) ∧
  (name ≠ "One" → name ≠ "Parabolic Decay" → name ≠ "Gaussian" → s.selected = .user ∧ s.body = some name)

theorem fits_call {rtc : Compiler2} {s : Influence} {name : String} (h : Fits s name) (z d : ℝ) :
    call rtc s.body s.pointer z d = meant rtc name z d := by
  obtain ⟨h0, h1, h2, h3, h4⟩ := h
  unfold meant
  by_cases e1 : name = "One"
  · rw [h0, h1 e1, if_pos e1]; rfl
  by_cases e2 : name = "Parabolic Decay"
  · rw [h0, h2 e2, if_neg e1, if_pos e2]; rfl
  by_cases e3 : name = "Gaussian"
  · rw [h0, h3 e3, if_neg e1, if_neg e2, if_pos e3]; rfl
  obtain ⟨h5, h6⟩ := h4 e1 e2 e3
  rw [h0, h5, h6, if_neg e1, if_neg e2, if_neg e3]; rfl

theorem select_fits {compiles : String → Bool} {s s' : Influence} {name : String} (hc : s.cached = none)
    (h : s.select compiles name = .ok s') : Fits s' name ∧ s'.cached = none := by
  unfold Influence.select at h
  split at h
  · rename_i e; cases BC.ok_inj h
    refine ⟨⟨?_, fun _ => rfl, ?_, ?_, ?_⟩, hc⟩
    · unfold Influence.pointer; rw [hc]; rfl
    all_goals (subst e; simp)
  split at h
  · rename_i e; cases BC.ok_inj h
    refine ⟨⟨?_, ?_, fun _ => rfl, ?_, ?_⟩, hc⟩
    · unfold Influence.pointer; rw [hc]; rfl
    all_goals (subst e; simp)
  split at h
  · rename_i e; cases BC.ok_inj h
    refine ⟨⟨?_, ?_, ?_, fun _ => rfl, ?_⟩, hc⟩
    · unfold Influence.pointer; rw [hc]; rfl
    all_goals (subst e; simp)
  split at h
  · rename_i e1 e2 e3 _; cases BC.ok_inj h
    refine ⟨⟨?_, fun e => absurd e e1, fun e => absurd e e2, fun e => absurd e e3,
      fun _ _ _ => ⟨rfl, rfl⟩⟩, hc⟩
    unfold Influence.pointer; rw [hc]; rfl
  · exact absurd h (by simp)

/-- **C51**, one run per process: after selections with no evaluation between them, every evaluation
gives the function selected last. -/
theorem C51_selected_partial (compiles : String → Bool) (rtc : Compiler2) (names : List String) (name : String)
    (evals : List (ℝ × ℝ)) (ws : List ℝ) (t : Influence)
    (h : runOps compiles rtc .start
      ((names ++ [name]).map Op.select ++ evals.map fun e => Op.evaluate e.1 e.2) = .ok (ws, t)) :
    List.Forall₂ (fun e w => meant rtc name e.1 e.2 = .ok w) evals ws := by
  have evalPart : ∀ (evals : List (ℝ × ℝ)) (s : Influence) (ws : List ℝ), Fits s name →
      runOps compiles rtc s (evals.map fun e => Op.evaluate e.1 e.2) = .ok (ws, t) →
      List.Forall₂ (fun e w => meant rtc name e.1 e.2 = .ok w) evals ws := by
    intro evals
    induction evals with
    | nil => intro s ws _ h; cases BC.ok_inj h; exact .nil
    | cons e evals ih =>
      intro s ws hf h
      simp only [List.map_cons, runOps] at h
      obtain ⟨⟨w, s'⟩, h1, h2⟩ := Outcome.bind_eq_ok.mp h
      obtain ⟨⟨ws', t'⟩, h3, h4⟩ := Outcome.bind_eq_ok.mp h2
      cases BC.ok_inj h4
      obtain ⟨w', h5, h6⟩ := Outcome.bind_eq_ok.mp h1
      cases BC.ok_inj h6
      rw [fits_call hf] at h5
      refine .cons h5 (ih _ ws' ?_ h3)
      obtain ⟨f0, f⟩ := hf
      exact ⟨f0, f⟩
  have selPart : ∀ (names : List String) (s : Influence), s.cached = none →
      runOps compiles rtc s ((names ++ [name]).map Op.select ++
        evals.map fun e => Op.evaluate e.1 e.2) = .ok (ws, t) →
      List.Forall₂ (fun e w => meant rtc name e.1 e.2 = .ok w) evals ws := by
    intro names
    induction names with
    | nil =>
      intro s hc h
      simp only [List.nil_append, List.map_cons, List.map_nil, List.cons_append, runOps] at h
      obtain ⟨s', h1, h2⟩ := Outcome.bind_eq_ok.mp h
      exact evalPart _ _ _ (select_fits hc h1).1 h2
    | cons n names ih =>
      intro s hc h
      simp only [List.cons_append, List.map_cons, runOps] at h
      obtain ⟨s', h1, h2⟩ := Outcome.bind_eq_ok.mp h
      exact ih s' (select_fits hc h1).2 h2
  exact selPart names _ rfl h

example (compiles : String → Bool) (rtc : Compiler2) : ∃ t,
    runOps compiles rtc .start ((([] : List String) ++ ["Parabolic Decay"]).map Op.select ++
      [((3 : ℝ), (2 : ℝ))].map fun e => Op.evaluate e.1 e.2) = .ok ([0], t) := by
  refine ⟨⟨.parabolic, none, some .parabolic⟩, ?_⟩
  have : parabolicDecay 3 2 = .ok 0 := if_pos (by norm_num)
  simp [runOps, Influence.select, Influence.scalar, Influence.pointer, Influence.start, call, this]

/-- Evaluations give the function selected last, in every sequence of steps. -/
def SelectionHonoured : Prop :=
  ∀ (compiles : String → Bool) (rtc : Compiler2) (ops : List Op) (name : String) (z h : ℝ) (ws : List ℝ)
    (t : Influence), runOps compiles rtc .start (ops ++ [.select name, .evaluate z h]) = .ok (ws, t) →
    ∃ w, ws.getLast? = some w ∧ meant rtc name z h = .ok w

/-- **C51 is false of the code** for a second run in the same process: `scalarInfluenceFunction` keeps the
pointer of its first call. -/
theorem C51_cached : ¬ SelectionHonoured := by
  intro H
  have hp : parabolicDecay 3 2 = .ok 0 := if_pos (by norm_num)
  obtain ⟨w, h1, h2⟩ := H (fun _ => true) (fun _ _ _ => none) [.select "One", .evaluate 1 2]
    "Parabolic Decay" 3 2 [1, 1] ⟨.parabolic, none, some .one⟩ (by
      simp [runOps, Influence.select, Influence.scalar, Influence.pointer, Influence.start, call, one])
  simp at h1
  subst h1
  rw [meant, if_neg (by decide), if_pos rfl, hp] at h2
  have := BC.ok_inj h2
  norm_num at this

end Verif.Params
