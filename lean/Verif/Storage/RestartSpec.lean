import Verif.Storage.RestartModel

/-!
# Restart: notions used in the statements
-/

noncomputable section

namespace Verif.Storage

open Verif Verif.BC
open scoped Classical

/-- A decimal number with at most six significant digits. -/
def SixDigits (t : ℝ) : Prop := ∃ m e : ℤ, |m| < 10 ^ 6 ∧ t = m * (10 : ℝ) ^ e

/-- The names of the directories written one after the other, the last one first. -/
def namesDown : Nat → List (List Char)
  | 0 => []
  | k + 1 => restartName (k + 1) :: namesDown k

/-- The directories are those written by the analyses so far, in that order. -/
def Orderly {β : Type} (k : Nat) (disk : Disk β) : Prop := disk.map Prod.fst = namesDown k

/-- Each solver begins at the time at which the one before has ended, the first at `t`; the last one
ends at the second time. -/
def Chained {κ β : Type} : ℝ → List (Solved κ β) → ℝ → Prop
  | t, [], t' => t = t'
  | t, r :: rs, t' => r.1 = t ∧ Chained r.2.1 rs t'

/-- A restarted analysis has the vectors, accelerations and block data that were written, and for the
rest what its constructor has set up. -/
def Restores {κ β : Type} (fresh stored live : Live κ β) : Prop :=
  live.vecs .u = stored.vecs .u ∧ live.vecs .v = stored.vecs .v ∧ live.vecs .y = stored.vecs .y ∧
  live.vecs .deltaU = stored.vecs .deltaU ∧
  live.vecs .deltaTemperature = stored.vecs .deltaTemperature ∧
  live.vecs .externalForce = stored.vecs .externalForce ∧
  live.a = stored.a ∧ live.blocks = stored.blocks ∧ live.kept = fresh.kept ∧
  live.vecs .temperature = fresh.vecs .temperature

/-- The forces do not depend on how many steps have been made (as they do when the contact search is
repeated every so many steps). -/
def StepFree {σ : Type} (eval : Explicit.Eval σ) : Prop := ∀ b j k w, eval b j w = eval b k w

/-- The evaluation of the forces replaces what was copied into the blocks before the time loop. -/
def Absorbs {σ : Type} (eval : Explicit.Eval σ) (reload : Vecs → σ → σ) : Prop :=
  ∀ w b k w', eval (reload w b) k w' = eval b k w'

/-- What the constructor sets up and the restart does not replace is what the analysis held when it
was stopped. -/
def SameRest {κ β : Type} (fresh old : Live κ β) : Prop :=
  fresh.kept = old.kept ∧ ∀ t, savedVec t = false → fresh.vecs t = old.vecs t

end Verif.Storage
