import Verif.QuasiStatic.Model

/-!
# Quasi-static load stepping: vocabulary of the properties
-/

namespace Verif.QuasiStatic

open Verif Verif.BC Verif.Explicit

variable {σ ω : Type}

/-- The variables at the end of a pass, however it ends. -/
def Next.state : Next σ ω → State σ ω
  | .again s => s
  | .finished s => s
  | .gaveUp s => s

/-- The option to shorten all remaining load steps is off. -/
def NoReduce (P : Params) : Prop := ∀ A, P.adaptive = some A → A.reduceAll = false

/-- The time that remains after the load step from `a` to `b` is a multiple of that step. -/
def Fits (tf a b : ℝ) : Prop := ∃ m : ℕ, tf - b = m * (b - a)

/-- The times of the completed load steps. -/
def State.completed (s : State σ ω) : List ℝ := s.log.map Record.time

/-- What a completed load step leaves for the next one: time, displacement, velocity (the
predictor) and state N of the blocks. -/
structure Accepted (σ : Type) where
  time : ℝ
  u : Nat → ℝ
  predictor : Nat → ℝ
  N : σ

/-- Load stepping without failures: each record is an accepted attempt that starts from what the
record before it left.  Only scratch data (`work`, vectors other than the displacement) may differ. -/
inductive Follows (P : Params) (E : Env) (S : Solver σ ω) :
    Accepted σ → List (Record ω) → Accepted σ → Prop
  | nil (c : Accepted σ) : Follows P E S c [] c
  | snoc {c c' : Accepted σ} {rs : List (Record ω)} (h : Follows P E S c rs c') (work : ω)
      (vecs : Vecs) (hu : vecs .u = c'.u) (r : Record ω)
      (ha : attempt P E S c'.N work c'.predictor vecs (rs.length + 1) c'.time r.time = .ok r.attempt)
      (hacc : accepts r.attempt = true)
      (hprev : r.previous = c'.time)
      (hvu : ∀ i, r.vecs .u i = c'.u i + r.attempt.iter.vecs .deltaU i)
      (hv : ∀ t, t ≠ .u → r.vecs t = r.attempt.iter.vecs t)
      (hwork : r.work = r.attempt.iter.bal.work) :
      Follows P E S c (rs ++ [r])
        { time := r.time, u := r.vecs .u, predictor := r.vecs .v, N := (S.shift c'.N r.work).1 }

/-- What the loop variables hold of the completed load steps. -/
def State.accepted (P : Params) (s : State σ ω) : Accepted σ :=
  { time := oldTime P s, u := s.vecs .u, predictor := s.predictor, N := s.N }

end Verif.QuasiStatic
