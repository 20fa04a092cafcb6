import Verif.Touch.ForceLemmas

/-! Steps and runs. -/

noncomputable section

namespace Verif.Touch

open Verif Verif.Mech Verif.Neigh Verif.Contact
open scoped Classical

/-- A model with another friction coefficient. -/
def setFriction (m : Model) (μ : ℝ) : Model := { m with params := { m.params with friction := μ } }

/-- The blocks' models during a run: only friction coefficients change, and only those that depend on time. -/
def Follows (models cur : List (Nat × Model)) : Prop :=
  List.Forall₂ (fun x x' => ∃ μ, x' = (x.1, setFriction x.2 μ) ∧ (x.2.source = .fixed → μ = x.2.params.friction)) models cur

/-- The blocks' models at time `t`. -/
def modelsAt (φ : Nat → ℝ → ℝ) (t : ℝ) (models : List (Nat × Model)) : List (Nat × Model) :=
  models.map fun x => (x.1, setFriction x.2 (φ x.1 t))

theorem follows_refl (models : List (Nat × Model)) : Follows models models := by
  unfold Follows
  rw [List.forall₂_same]
  exact fun x _ => ⟨x.2.params.friction, rfl, fun _ => rfl⟩

theorem follows_at {models : List (Nat × Model)} {φ : Nat → ℝ → ℝ} (h : ∀ x ∈ models, Asks x.2 (φ x.1)) (t : ℝ) :
    Follows models (modelsAt φ t models) := by
  unfold Follows modelsAt
  rw [List.forall₂_map_right_iff, List.forall₂_same]
  intro x hx
  refine ⟨_, rfl, ?_⟩
  intro hs
  have := h x hx
  rw [Asks, hs] at this
  exact this t

theorem evaluateFriction_eq {m : Model} {φ : ℝ → ℝ} (h : Asks m φ) (μ tc tp : ℝ)
    (hμ : m.source = .fixed → μ = m.params.friction) :
    evaluateFriction tc tp (setFriction m μ) = .ok (setFriction m (φ tc)) := by
  rw [evaluateFriction]
  show (match m.source with
    | .fixed => Outcome.ok (setFriction m μ)
    | .timed none => .fail .runtimeError
    | .timed (some f) => do
      let previous ← callBody f tp 0
      let current ← callBody f tc previous
      .ok { setFriction m μ with params := { (setFriction m μ).params with friction := current } }) = _
  unfold Asks at h
  match hs : m.source, h with
  | .fixed, h => simp only; rw [hμ hs, h tc]
  | .timed (some f), h =>
    simp only [callBody, h, Outcome.ok_bind]
    rfl

theorem friction_step {models cur : List (Nat × Model)} {φ : Nat → ℝ → ℝ} (h : ∀ x ∈ models, Asks x.2 (φ x.1))
    (hc : Follows models cur) (tc tp : ℝ) :
    List.Forall₂ (fun x x' => x'.1 = x.1 ∧ evaluateFriction tc tp x.2 = .ok x'.2) cur (modelsAt φ tc models) := by
  unfold Follows at hc
  unfold modelsAt
  induction hc with
  | nil => exact .nil
  | cons hr _ ih =>
    rw [List.map_cons]
    refine .cons ?_ (ih fun x hx => h x (List.mem_cons_of_mem _ hx))
    obtain ⟨μ, rfl, hμ⟩ := hr
    exact ⟨rfl, evaluateFriction_eq (h _ List.mem_cons_self) μ tc tp hμ⟩

theorem validModels_at {W : World} {models : List (Nat × Model)} (h : ValidModels W models) (φ : Nat → ℝ → ℝ) (t : ℝ) :
    ValidModels W (modelsAt φ t models) := by
  refine ⟨?_, ?_, ?_⟩
  · simpa [modelsAt, Function.comp_def] using h.nodup
  · simpa [modelsAt, Function.comp_def] using h.block
  · intro x hx
    obtain ⟨z, hz, rfl⟩ := List.mem_map.1 hx
    exact h.radius z hz

theorem paramsOf_at (models : List (Nat × Model)) (φ : Nat → ℝ → ℝ) (t : ℝ) (b : Nat) (hb : b ∈ models.map Prod.fst) :
    paramsOf (modelsAt φ t models) b = paramsAt models φ t b := by
  unfold paramsAt paramsOf modelsAt
  induction models with
  | nil => cases hb
  | cons x models ih =>
    rw [List.map_cons, List.lookup_cons, show x = (x.1, x.2) from rfl, List.lookup_cons]
    by_cases h : b = x.1
    · subst h; simp [setFriction]
    · rw [show (b == x.1) = false by simpa using h]
      rcases List.mem_cons.1 hb with h1 | h1
      · exact absurd h1 h
      · exact ih h1

theorem forcesOn_congr {W : World} {P P' : Nat → Params} (h : ∀ g ∈ W.ids, P (W.block g) = P' (W.block g))
    (cn : Nat → List Nat) (y v : Nat → V3) (target : Assembly.Dist V3) :
    forcesOn W P cn y v target = forcesOn W P' cn y v target := by
  have : ∀ g, forceOn W P cn y v g = forceOn W P' cn y v g := by
    intro g
    unfold forceOn
    congr 1
    apply List.map_congr_left
    intro i hi
    rw [h i hi]
  unfold forcesOn
  simp only [this]

/-- A state of a run: right for the contact neighbors `cn`, some coordinates and velocities, and models that follow the
input; the processors own `o`. -/
def Good (W : World) (models : List (Nat × Model)) (cn : Nat → List Nat) (o : List (List Nat)) (s : State) : Prop :=
  s.parts.map Contact.Part.owned = o ∧
  ∃ y v cur, Follows models cur ∧ Loaded W cn y v cur s ∧ Built W cn y v s

theorem contactForce_eq {W : World} (hW : W.Valid) {cn : Nat → List Nat} {y0 v0 y v : Nat → V3}
    {models : List (Nat × Model)} (hM : ValidModels W models) {s : State} (h : Loaded W cn y0 v0 models s)
    (hB : Built W cn y0 v0 s) {dy dv : Assembly.Dist V3} (hy : Carries W.ids y dy) (hv : Carries W.ids v dv)
    (target : Assembly.Dist V3) (ht : ∀ part ∈ target, ∀ e ∈ part, e.1 ∈ W.ids) :
    (∀ r, contactForce dy dv target s = .ok r → r.2 = forcesOn W (paramsOf models) cn y v target ∧
      Loaded W cn y v models r.1 ∧ Built W cn y v r.1 ∧ r.1.parts = s.parts) ∧
    ((∀ x ∈ models, x.2.params.horizon ≠ 0) → Apart W cn y → ∃ r, contactForce dy dv target s = .ok r) := by
  obtain ⟨h1, h2, h3⟩ := importData_eq hW h hB hy hv
  refine ⟨?_, ?_⟩
  · intro r hr
    rw [contactForce, Outcome.bind_eq_ok] at hr
    obtain ⟨forces, h4, h5⟩ := hr
    cases h5
    exact ⟨exportData_eq hW hM h1 h2 h4 target ht, h1, h2, h3⟩
  · intro hh hd
    obtain ⟨forces, h4⟩ := evaluate_some h1 h2 hh hd
    exact ⟨_, by rw [contactForce, h4, Outcome.ok_bind]⟩

/-- One step from a good state. -/
theorem step_eq {W : World} (hW : W.Valid) {models : List (Nat × Model)} (hM : ValidModels W models) {φ : Nat → ℝ → ℝ}
    (hφ : ∀ x ∈ models, Asks x.2 (φ x.1)) {cn : Nat → List Nat} {o : List (List Nat)} {s : State}
    (h : Good W models cn o s) {freq : Int} (hf : freq ≠ 0) {n : Nat} {x : StepInput} {t : Truth}
    (hr : freq ∣ (n : Int) → GoodRound W t.search o x.round) (hy : Carries W.ids t.y x.y) (hv : Carries W.ids t.v x.v)
    (target : Assembly.Dist V3) (ht : ∀ part ∈ target, ∀ e ∈ part, e.1 ∈ W.ids) :
    (∀ r, step freq n x target s = .ok r →
      r.2 = forcesOn W (paramsAt models φ x.timeCurrent) (neighborsAtStep W freq n t.search cn) t.y t.v target ∧
      Good W models (neighborsAtStep W freq n t.search cn) (ownersAfter freq n x.round o) r.1) ∧
    ((∀ x ∈ models, x.2.params.horizon ≠ 0) → Apart W (neighborsAtStep W freq n t.search cn) t.y →
      ∃ r, step freq n x target s = .ok r) := by
  obtain ⟨ho, y0, v0, cur, hc, hL, hB⟩ := h
  -- the rebalance
  obtain ⟨s1, h1, hL1, hB1, ho1⟩ : ∃ s1, rebalance freq n x.round s = .ok s1 ∧
      Loaded W (neighborsAtStep W freq n t.search cn) y0 v0 cur s1 ∧
      Built W (neighborsAtStep W freq n t.search cn) y0 v0 s1 ∧
      s1.parts.map Contact.Part.owned = ownersAfter freq n x.round o := by
    unfold neighborsAtStep ownersAfter
    by_cases hs : freq ∣ (n : Int)
    · rw [if_pos hs, if_pos hs]
      exact rebalance_eq hW hL hf hs (ho ▸ hr hs)
    · rw [if_neg hs, if_neg hs]
      exact ⟨s, rebalance_skip hf hs _ _, hL, hB, ho⟩
  have hfr := friction_step hφ hc x.timeCurrent x.timePrevious
  obtain ⟨s2, h2⟩ := updateFriction_some hL1 hfr
  obtain ⟨hL2, hB2, hp2⟩ := updateFriction_eq hL1 hB1 hfr h2
  have hM2 := validModels_at hM φ x.timeCurrent
  obtain ⟨k1, k2⟩ := contactForce_eq hW hM2 hL2 hB2 hy hv target ht
  have e : step freq n x target s = contactForce x.y x.v target s2 := by
    rw [step, h1, Outcome.ok_bind, h2, Outcome.ok_bind]
  rw [e]
  refine ⟨?_, ?_⟩
  · intro r hr'
    obtain ⟨h3, h4, h5, h6⟩ := k1 r hr'
    refine ⟨?_, ?_, t.y, t.v, modelsAt φ x.timeCurrent models, follows_at hφ _, h4, h5⟩
    · rw [h3]
      exact forcesOn_congr (fun g hg => paramsOf_at models φ _ _ (hM.block g hg)) _ _ _ _
    · rw [h6, hp2, ho1]
  · intro hh hd
    refine k2 ?_ hd
    intro z hz
    obtain ⟨z0, hz0, rfl⟩ := List.mem_map.1 hz
    exact hh z0 hz0

theorem steps_eq {W : World} (hW : W.Valid) {models : List (Nat × Model)} (hM : ValidModels W models) {φ : Nat → ℝ → ℝ}
    (hφ : ∀ x ∈ models, Asks x.2 (φ x.1)) {freq : Int} (hf : freq ≠ 0)
    (target : Assembly.Dist V3) (ht : ∀ part ∈ target, ∀ e ∈ part, e.1 ∈ W.ids) (xs : List StepInput) :
    ∀ (ts : List Truth) (n : Nat) (cn : Nat → List Nat) (o : List (List Nat)) (s : State), Good W models cn o s →
      GoodSteps W freq n o xs ts →
      (∀ outs, steps freq target n xs s = .ok outs → outs = expected W freq (paramsAt models φ) target n cn ts) ∧
      ((∀ x ∈ models, x.2.params.horizon ≠ 0) → AllApart W freq n cn ts → ∃ outs, steps freq target n xs s = .ok outs) := by
  induction xs with
  | nil =>
    intro ts n cn o s _ hg
    cases ts with
    | nil =>
      refine ⟨?_, fun _ _ => ⟨[], rfl⟩⟩
      intro outs h
      rw [steps] at h
      cases h
      rfl
    | cons t ts => exact absurd hg (by simp [GoodSteps])
  | cons x xs ih =>
    intro ts n cn o s hs hg
    cases ts with
    | nil => exact absurd hg (by simp [GoodSteps])
    | cons t ts =>
      obtain ⟨h1, h2, h3, h4, h5⟩ := hg
      obtain ⟨k1, k2⟩ := step_eq hW hM hφ hs hf h1 h2 h3 target ht
      refine ⟨?_, ?_⟩
      · intro outs h
        rw [steps, Outcome.bind_eq_ok] at h
        obtain ⟨r, h6, h7⟩ := h
        rw [Outcome.bind_eq_ok] at h7
        obtain ⟨rest, h8, h9⟩ := h7
        cases h9
        obtain ⟨h10, h11⟩ := k1 r h6
        rw [expected, h10, (ih ts (n + 1) _ _ r.1 h11 h5).1 rest h8, h4]
      · intro hh hd
        obtain ⟨r, h6⟩ := k2 hh hd.1
        obtain ⟨h10, h11⟩ := k1 r h6
        obtain ⟨rest, h8⟩ := (ih ts (n + 1) _ _ r.1 h11 h5).2 hh hd.2
        exact ⟨_, by rw [steps, h6, Outcome.ok_bind, h8, Outcome.ok_bind]⟩

theorem initial_eq {W : World} (hW : W.Valid) {models : List (Nat × Model)} (hM : ValidModels W models) {φ : Nat → ℝ → ℝ}
    (hφ : ∀ x ∈ models, Asks x.2 (φ x.1)) {freq : Int} (hf : freq ≠ 0) {parts : List Contact.Part} {M : Mothership}
    (hst : GoodStart W parts M) {r : Round} {t : Truth}
    (hr : GoodRound W t.search (parts.map Contact.Part.owned) r) {dy dv : Assembly.Dist V3}
    (hy : Carries W.ids t.y dy) (hv : Carries W.ids t.v dv)
    (target : Assembly.Dist V3) (ht : ∀ part ∈ target, ∀ e ∈ part, e.1 ∈ W.ids) :
    (∀ i, initial freq parts models M r dy dv target = .ok i →
      i.2 = forcesOn W (paramsAt models φ 0) (unbonded W.bonds t.search) t.y t.v target ∧
      Good W models (unbonded W.bonds t.search) (r.tgt.map Prod.fst) i.1) ∧
    ((∀ x ∈ models, x.2.params.horizon ≠ 0) → Apart W (unbonded W.bonds t.search) t.y →
      ∃ i, initial freq parts models M r dy dv target = .ok i) := by
  obtain ⟨y0, hy0⟩ := hst.y
  obtain ⟨v0, hv0⟩ := hst.v
  obtain ⟨s0, h0, hL0, hB0, hp0⟩ := start_eq hW (models := models) hst.parts hW.bonds hst.block hst.vol hy0 hv0
  have hfr := friction_step hφ (follows_refl models) 0 0
  obtain ⟨s1, h1⟩ := updateFriction_some hL0 hfr
  obtain ⟨hL1, hB1, hp1⟩ := updateFriction_eq hL0 hB0 hfr h1
  have hd0 : freq ∣ ((0 : Nat) : Int) := by simp
  obtain ⟨s2, h2, hL2, hB2, ho2⟩ := rebalance_eq hW hL1 hf hd0 (by rw [hp1, hp0]; exact hr)
  have hM2 := validModels_at hM φ 0
  obtain ⟨k1, k2⟩ := contactForce_eq hW hM2 hL2 hB2 hy hv target ht
  have e : initial freq parts models M r dy dv target = contactForce dy dv target s2 := by
    rw [initial, h0, Outcome.ok_bind, h1, Outcome.ok_bind, h2, Outcome.ok_bind]
  rw [e]
  refine ⟨?_, ?_⟩
  · intro i hi
    obtain ⟨h3, h4, h5, h6⟩ := k1 i hi
    refine ⟨?_, by rw [h6, ho2], t.y, t.v, modelsAt φ 0 models, follows_at hφ _, h4, h5⟩
    rw [h3]
    exact forcesOn_congr (fun g hg => paramsOf_at models φ _ _ (hM.block g hg)) _ _ _ _
  · intro hh hd
    refine k2 ?_ hd
    intro z hz
    obtain ⟨z0, hz0, rfl⟩ := List.mem_map.1 hz
    exact hh z0 hz0

end Verif.Touch
