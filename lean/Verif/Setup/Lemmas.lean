import Verif.Setup.Spec
import Verif.BC.Lemmas
import Verif.Damage.Lemmas
import Verif.Neigh.Blocks

/-! Helper lemmas for C149 to C154. -/

noncomputable section

namespace Verif.Setup

open Verif Verif.Params
open scoped Classical

variable {M : Type}

/-! ### Lists of blocks -/

theorem materials_mem {rtc : Compiler} {hm : Horizons} {multi : Bool} {probe : ℝ}
    {ms : String → Option (MaterialList M)} {bs : List (Params.Block BlockParams)}
    {r : List (Params.Block BlockParams × Material M)} (h : materials rtc hm multi probe ms bs = .ok r) :
    r.map Prod.fst = bs ∧ ∀ bm ∈ r, blockMaterial rtc hm multi probe ms bm.1 = .ok bm.2 := by
  induction bs generalizing r with
  | nil => cases h; simp
  | cons b bs ih =>
    rw [materials] at h
    obtain ⟨m, h1, h⟩ := Outcome.bind_eq_ok.1 h
    obtain ⟨rest, h2, h⟩ := Outcome.bind_eq_ok.1 h
    cases h
    obtain ⟨a, b'⟩ := ih h2
    refine ⟨by simp [a], ?_⟩
    intro bm hbm
    rcases List.mem_cons.1 hbm with rfl | hbm
    · exact h1
    · exact b' bm hbm

theorem materials_ok {rtc : Compiler} {hm : Horizons} {multi : Bool} {probe : ℝ}
    {ms : String → Option (MaterialList M)} {bs : List (Params.Block BlockParams)}
    (h : ∀ b ∈ bs, ∃ m, blockMaterial rtc hm multi probe ms b = .ok m) :
    ∃ r, materials rtc hm multi probe ms bs = .ok r := by
  induction bs with
  | nil => exact ⟨[], rfl⟩
  | cons b bs ih =>
    obtain ⟨m, hm'⟩ := h b List.mem_cons_self
    obtain ⟨r, hr⟩ := ih fun b hb => h b (List.mem_cons_of_mem _ hb)
    exact ⟨(b, m) :: r, by rw [materials, hm', Outcome.ok_bind, hr]; rfl⟩

/-- What a created material comes from. -/
theorem blockMaterial_ok {rtc : Compiler} {hm : Horizons} {multi : Bool} {probe : ℝ}
    {ms : String → Option (MaterialList M)} {b : Params.Block BlockParams} {m : Material M}
    (h : blockMaterial rtc hm multi probe ms b = .ok m) :
    ∃ h' name p, blockHorizon rtc hm b.name = .ok h' ∧ b.params.material = some name ∧ screen multi name = .ok () ∧
      ms name = some p ∧ p.horizon = none ∧ p.model = some m.model ∧ m.model ∈ materialModels ∧
      m = ⟨m.model, h', some (p.probe.getD probe), p.rest⟩ := by
  rw [blockMaterial] at h
  obtain ⟨h', h1, h⟩ := Outcome.bind_eq_ok.1 h
  split at h
  · cases h
  · next name hn =>
    obtain ⟨⟨⟩, h2, h⟩ := Outcome.bind_eq_ok.1 h
    split at h
    · cases h
    · next p hp =>
      obtain ⟨p', h3, h⟩ := Outcome.bind_eq_ok.1 h
      rw [fillParams] at h3
      split at h3
      · cases h3
      · next hz =>
        cases h3
        rw [createMaterial] at h
        split at h
        · cases h
        · next n hmod =>
          split at h
          · next hin =>
            cases h
            refine ⟨h', name, p, h1, hn, h2, hp, ?_, hmod, hin, rfl⟩
            simpa using hz
          · cases h

theorem screen_ok {multi : Bool} {name : String} (h : screen multi name = .ok ()) :
    contains "Multiphysics" name = multi := by
  rw [screen] at h
  split at h
  · cases h
  · next h1 =>
    split at h
    · cases h
    · next h2 =>
      cases multi <;> cases hc : contains "Multiphysics" name <;> simp_all

/-! ### Densities -/

theorem setBlock_spec {map : List Nat} {rho : ℝ} {owned : List Nat} {d d' : Nat → ℝ}
    (h : owned.foldlM (setDensity map rho) d = .ok d') (g : Nat) (hg : g ∈ map) :
    d' (map.idxOf g) = if g ∈ owned then rho else d (map.idxOf g) := by
  induction owned generalizing d with
  | nil => cases BC.ok_inj h; simp
  | cons a owned ih =>
    obtain ⟨d1, h1, h2⟩ := BC.foldlM_cons_ok.1 h
    rw [setDensity] at h1
    split at h1
    · next ha =>
      cases h1
      rw [ih h2]
      by_cases ho : g ∈ owned
      · simp [ho]
      · rw [if_neg ho]
        by_cases hga : g = a
        · subst hga
          simp
        · rw [if_neg (by simp [hga, ho]), Function.update_of_ne]
          intro he
          exact hga ((List.idxOf_inj hg).1 he)
    · cases h1

theorem setDensities_spec {map : List Nat} {bs : List BlockDensity} {d d' : Nat → ℝ}
    (h : setDensities map d bs = .ok d') (g : Nat) (hg : g ∈ map) (rho : ℝ)
    (h0 : (∃ b ∈ bs, g ∈ b.owned ∧ b.density = rho) ∨ d (map.idxOf g) = rho)
    (hu : ∀ b ∈ bs, g ∈ b.owned → b.density = rho) : d' (map.idxOf g) = rho := by
  induction bs generalizing d with
  | nil =>
    cases BC.ok_inj h
    rcases h0 with ⟨b, hb, _⟩ | h0
    · simp at hb
    · exact h0
  | cons b bs ih =>
    rw [setDensities] at h
    obtain ⟨d1, h1, h2⟩ := BC.foldlM_cons_ok.1 h
    have hs := setBlock_spec h1 g hg
    refine ih h2 ?_ fun b' hb' => hu b' (List.mem_cons_of_mem _ hb')
    by_cases hb : g ∈ b.owned
    · right
      rw [hs, if_pos hb]
      exact hu b List.mem_cons_self hb
    · rcases h0 with ⟨b', hb', hg', hr⟩ | h0
      · rcases List.mem_cons.1 hb' with rfl | hb'
        · exact absurd hg' hb
        · exact Or.inl ⟨b', hb', hg', hr⟩
      · right
        rw [hs, if_neg hb]
        exact h0

theorem setDensities_defined {map : List Nat} {bs : List BlockDensity} (d : Nat → ℝ)
    (h : ∀ b ∈ bs, ∀ g ∈ b.owned, g ∈ map) : ∃ d', setDensities map d bs = .ok d' := by
  have one : ∀ (rho : ℝ) (owned : List Nat) (d : Nat → ℝ), (∀ g ∈ owned, g ∈ map) →
      ∃ d', owned.foldlM (setDensity map rho) d = .ok d' := by
    intro rho owned
    induction owned with
    | nil => exact fun d _ => ⟨d, rfl⟩
    | cons a owned ih =>
      intro d h
      obtain ⟨d', hd⟩ := ih (Function.update d (map.idxOf a) rho) fun g hg => h g (List.mem_cons_of_mem _ hg)
      exact ⟨d', BC.foldlM_cons_ok.2 ⟨_, by rw [setDensity, if_pos (h a List.mem_cons_self)], hd⟩⟩
  induction bs generalizing d with
  | nil => exact ⟨d, rfl⟩
  | cons b bs ih =>
    obtain ⟨d1, h1⟩ := one b.density b.owned d (h b List.mem_cons_self)
    obtain ⟨d', h2⟩ := ih d1 fun b hb => h b (List.mem_cons_of_mem _ hb)
    exact ⟨d', BC.foldlM_cons_ok.2 ⟨d1, h1, h2⟩⟩

/-! ### Flags of the solvers -/

theorem flags_full (solvers : List SolverList) (f : TangentFlags) :
    (solvers.foldl addFlags f).fullTangent = true ↔
      f.fullTangent = true ∨ ∃ s ∈ solvers, s.preconditioner = some "Full Tangent" := by
  induction solvers generalizing f with
  | nil => simp
  | cons s ss ih =>
    rw [List.foldl_cons, ih]
    simp only [addFlags, Bool.or_eq_true, decide_eq_true_eq, List.mem_cons, exists_eq_or_imp, or_assoc]

theorem flags_block (solvers : List SolverList) (f : TangentFlags) :
    (solvers.foldl addFlags f).blockDiagonal = true ↔ f.blockDiagonal = true ∨ ∃ s ∈ solvers, AsksForLess s := by
  induction solvers generalizing f with
  | nil => simp
  | cons s ss ih =>
    rw [List.foldl_cons, ih]
    simp only [addFlags, Bool.or_eq_true, decide_eq_true_eq, List.mem_cons, exists_eq_or_imp, or_assoc, AsksForLess]

theorem flags_implicit (solvers : List SolverList) (f : TangentFlags) :
    (solvers.foldl addFlags f).implicitTimeIntegration = true ↔ f.implicitTimeIntegration = true ∨
      ∃ s ∈ solvers, s.quasiStatic = true ∨ s.noxQuasiStatic = true ∨ s.implicit = true ∨ s.implicitDiffusion = true := by
  induction solvers generalizing f with
  | nil => simp
  | cons s ss ih =>
    rw [List.foldl_cons, ih]
    simp only [addFlags, Bool.or_eq_true, List.mem_cons, exists_eq_or_imp, or_assoc]

theorem allocate_iff (solvers : List SolverList) (coupling : Bool) :
    allocateTangent solvers coupling = true ↔
      (∃ s ∈ solvers, s.preconditioner = some "Full Tangent") ∨
      ((∃ s ∈ solvers, s.quasiStatic = true ∨ s.noxQuasiStatic = true ∨ s.implicit = true ∨
          s.implicitDiffusion = true) ∧ ∀ s ∈ solvers, ¬ AsksForLess s) ∨ coupling = true := by
  have h1 := flags_full solvers {}
  have h2 := flags_block solvers {}
  have h3 := flags_implicit solvers {}
  simp only [Bool.false_eq_true, false_or] at h1 h2 h3
  rw [allocateTangent]
  simp only [Bool.or_eq_true, Bool.and_eq_true, Bool.not_eq_true', or_assoc]
  rw [h1, h3, ← Bool.not_eq_true, ← Bool.not_eq_true, h1, h2]
  constructor
  · rintro (h | ⟨h, _, hb⟩ | h)
    · exact Or.inl h
    · exact Or.inr (Or.inl ⟨h, fun s hs ha => hb ⟨s, hs, ha⟩⟩)
    · exact Or.inr (Or.inr h)
  · rintro (h | ⟨h, hb⟩ | h)
    · exact Or.inl h
    · by_cases hf : ∃ s ∈ solvers, s.preconditioner = some "Full Tangent"
      · exact Or.inl hf
      · exact Or.inr (Or.inl ⟨h, hf, fun ⟨s, hs, ha⟩ => hb s hs ha⟩)
    · exact Or.inr (Or.inr h)

theorem scheme_implicit {s : SolverList} {sc : Scheme} (h : scheme s = .ok sc) (hne : sc ≠ .explicit) :
    s.quasiStatic = true ∨ s.noxQuasiStatic = true ∨ s.implicit = true ∨ s.implicitDiffusion = true := by
  rw [scheme] at h
  split at h
  · cases h; exact absurd rfl hne
  split at h
  · next hq => exact Or.inl hq
  split at h
  · next hq => exact Or.inr (Or.inl hq)
  split at h
  · next hq => exact Or.inr (Or.inr (Or.inl hq))
  split at h
  · next hq => exact Or.inr (Or.inr (Or.inr hq))
  · cases h

end Verif.Setup
