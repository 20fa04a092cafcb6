import Verif.Nox.DiagModel
import Mathlib.Tactic.Linarith
import Mathlib.Tactic.Positivity
import Mathlib.Tactic.NormNum

/-!
# C228: the check of the Jacobian for symmetry
-/

namespace Verif.Nox

open Verif

theorem rowDifference_self (r : List (Nat × ℝ)) : rowDifference r r = .ok (r.map fun e => (e.1, 0)) := by
  induction r with
  | nil => rfl
  | cons a r ih => simp [rowDifference, ih, Outcome.ok_bind]

theorem difference_self (A : Crs) : difference A A = .ok (A.map fun r => r.map fun e => (e.1, 0)) := by
  induction A with
  | nil => rfl
  | cons r A ih => simp [difference, rowDifference_self, ih, Outcome.ok_bind]

/-- Sum of the squares of the entries. -/
noncomputable def squares (A : Crs) : ℝ := (A.map fun row => (row.map fun e => e.2 ^ 2).sum).sum

theorem row_nonneg (r : List (Nat × ℝ)) : 0 ≤ (r.map fun e => e.2 ^ 2).sum :=
  List.sum_nonneg fun a ha => by
    obtain ⟨e, _, rfl⟩ := List.mem_map.1 ha
    exact sq_nonneg _

theorem squares_nonneg (A : Crs) : 0 ≤ squares A :=
  List.sum_nonneg fun a ha => by
    obtain ⟨r, _, rfl⟩ := List.mem_map.1 ha
    exact row_nonneg r

theorem row_zero {r t d : List (Nat × ℝ)} (h : rowDifference r t = .ok d) :
    (d.map fun e => e.2 ^ 2).sum = 0 ↔ r = t := by
  induction r generalizing t d with
  | nil =>
    cases t with
    | nil =>
      have := Outcome.ok.inj h; subst this
      simp
    | cons b t => exact absurd h (by simp [rowDifference])
  | cons a r ih =>
    cases t with
    | nil => exact absurd h (by simp [rowDifference])
    | cons b t =>
      unfold rowDifference at h
      by_cases hab : a.1 ≠ b.1
      · rw [if_pos hab] at h; exact absurd h (by simp)
      · rw [if_neg hab] at h
        obtain ⟨rest, hrest, h⟩ := Outcome.bind_eq_ok.1 h
        have := Outcome.ok.inj h; subst this
        simp only [List.map_cons, List.sum_cons, List.cons.injEq, sq_abs]
        rw [← ih hrest]
        push Not at hab
        have h0 := row_nonneg rest
        constructor
        · intro e
          have h1 : ((1 / 2) * (a.2 - b.2)) ^ 2 = 0 := le_antisymm (by linarith) (sq_nonneg _)
          have h2 : a.2 = b.2 := by
            have := pow_eq_zero_iff (two_ne_zero) |>.1 h1
            linarith
          refine ⟨Prod.ext hab h2, ?_⟩
          rw [h1] at e; linarith
        · rintro ⟨rfl, e⟩
          rw [e]; simp

theorem matrix_zero {A B D : Crs} (h : difference A B = .ok D) : squares D = 0 ↔ A = B := by
  induction A generalizing B D with
  | nil =>
    cases B with
    | nil =>
      have := Outcome.ok.inj h; subst this
      simp [squares]
    | cons b t => exact absurd h (by simp [difference])
  | cons r A ih =>
    cases B with
    | nil => exact absurd h (by simp [difference])
    | cons t B =>
      unfold difference at h
      by_cases hl : r.length ≠ t.length
      · rw [if_pos hl] at h; exact absurd h (by simp)
      · rw [if_neg hl] at h
        obtain ⟨row, hrow, h⟩ := Outcome.bind_eq_ok.1 h
        obtain ⟨rest, hrest, h⟩ := Outcome.bind_eq_ok.1 h
        have := Outcome.ok.inj h; subst this
        have e1 := row_nonneg row
        have e2 := squares_nonneg rest
        have : squares (row :: rest) = (row.map fun e => e.2 ^ 2).sum + squares rest := rfl
        rw [this, List.cons.injEq, ← row_zero hrow, ← ih hrest]
        constructor
        · intro e; constructor <;> linarith
        · rintro ⟨a, b⟩; linarith

/-- **C228** is false: whatever the Jacobian, and whatever its transpose is, the asymmetric norm that is printed is zero,
because the transpose is stored elsewhere and the Jacobian is compared with a copy of itself; the "symmetric" norm is the
norm of the whole matrix. -/
theorem C228_reports_zero (transposed A : Crs) :
    jacobianDiagnostics transposed A = .ok (0, Real.sqrt (squares A)) := by
  unfold jacobianDiagnostics report createTranspose locals
  simp only [difference_self, Outcome.ok_bind]
  have : (frobenius (A.map fun r => r.map fun e => (e.1, (0:ℝ)))) = 0 := by
    have h : squares (A.map fun r => r.map fun e => (e.1, (0:ℝ))) = 0 := by
      unfold squares
      apply List.sum_eq_zero
      intro x hx
      obtain ⟨r, hr, rfl⟩ := List.mem_map.1 hx
      obtain ⟨q, hq, rfl⟩ := List.mem_map.1 hr
      apply List.sum_eq_zero
      intro y hy
      obtain ⟨e, he, rfl⟩ := List.mem_map.1 hy
      obtain ⟨e', he', rfl⟩ := List.mem_map.1 he
      simp
    unfold frobenius
    unfold squares at h
    rw [h, Real.sqrt_zero]
  rw [this]; rfl

/-- **C228** is false (witness): a matrix that is not symmetric is reported as symmetric. -/
theorem C228_fails : ∃ A T : Crs,
    A = [[(0, 1), (1, 2)], [(0, 0), (1, 1)]] ∧ T = [[(0, 1), (1, 0)], [(0, 2), (1, 1)]] ∧ A ≠ T ∧
    ∃ n, jacobianDiagnostics T A = .ok (0, n) :=
  ⟨_, _, rfl, rfl, by simp, _, C228_reports_zero _ _⟩

/-- **C228** (what the loop is for): given the transpose, the loop either finds that the two do not have the same
structure, which ends the program, or gives zero exactly if the matrix equals its transpose. -/
theorem C228_loop_partial {A T : Crs} {p : ℝ × ℝ} (h : report A T = .ok p) :
    (p.1 = 0 ↔ A = T) ∧ 0 ≤ p.1 ∧ p.2 = Real.sqrt (squares A) := by
  unfold report at h
  obtain ⟨D, hD, h⟩ := Outcome.bind_eq_ok.1 h
  have := Outcome.ok.inj h; subst this
  refine ⟨?_, Real.sqrt_nonneg _, rfl⟩
  rw [← matrix_zero hD]
  exact Real.sqrt_eq_zero (squares_nonneg D)

example : ∃ p, report [[(0, 1), (1, 2)], [(0, 0), (1, 1)]] [[(0, 1), (1, 0)], [(0, 2), (1, 1)]] = .ok p := by
  simp [report, difference, rowDifference, Outcome.ok_bind]

end Verif.Nox
