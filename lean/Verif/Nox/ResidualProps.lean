import Verif.Nox.Props
import Verif.QuasiStatic.Demo

/-!
# Quasi-statics with NOX: residual (C46, C72)
-/

namespace Verif.Nox

open Verif Verif.BC Verif.Explicit

variable {σ ω : Type}

/-- The contributions of the blocks do not depend on what earlier evaluations left in them. -/
def Pure (S : Materials σ ω) : Prop :=
  ∀ N wk wk' dt w p p', S.blocks N wk dt w = .ok p → S.blocks N wk' dt w = .ok p' → p.2 = p'.2

/-- Two sets of vectors agree except for positions and velocities, which an evaluation replaces. -/
def SameInput (w w' : Vecs) : Prop := ∀ t, t ≠ .y → t ≠ .v → w t = w' t

theorem moved_same {E : QuasiStatic.Env} {dt : ℝ} {bv x : Nat → ℝ} {w w' v v' : Vecs}
    (hs : SameInput w w') (h : moved E dt bv x w = .ok v) (h' : moved E dt bv x w' = .ok v') :
    v = v' := by
  unfold moved at h h'
  split at h
  · exact absurd h (by simp)
  · rename_i hd
    rw [if_neg hd] at h'
    rw [← ok_inj h, ← ok_inj h']
    have hu := hs .u (by decide) (by decide)
    funext t
    by_cases hv : t = .v
    · subst hv; rw [setVec_self, setVec_self]
    · rw [setVec_ne _ _ hv, setVec_ne _ _ hv]
      by_cases hy : t = .y
      · subst hy; rw [setVec_self, setVec_self, hu]
      · rw [setVec_ne _ _ hy, setVec_ne _ _ hy]
        exact hs t hy hv

theorem moved_keeps {E : QuasiStatic.Env} {dt : ℝ} {bv x : Nat → ℝ} {w v : Vecs}
    (h : moved E dt bv x w = .ok v) : SameInput v w := by
  unfold moved at h
  split at h
  · exact absurd h (by simp)
  · rw [← ok_inj h]
    intro t hy hv
    rw [setVec_ne _ _ hv, setVec_ne _ _ hy]

/-- The parts of an evaluation. -/
theorem residual_ok {E : QuasiStatic.Env} {S : Materials σ ω} {N : σ} {dt : ℝ} {bv x r : Nat → ℝ}
    {s s' : Data ω} (h : residual E S N dt bv s x = .ok (s', r)) :
    ∃ w p, moved E dt bv x s.vecs = .ok w ∧ S.blocks N s.work dt w = .ok p ∧ s'.vecs = w ∧
      s'.work = p.1 ∧ s'.force = accumulate (fun _ => 0) (p.2.map Prod.fst) ∧
      s'.fluidFlow = s.fluidFlow ∧
      QuasiStatic.zeroed E (fun i => (s'.force i + w .externalForce i) * E.volume (i / 3)) = .ok r := by
  unfold residual at h
  obtain ⟨w, h1, h⟩ := Outcome.bind_eq_ok.mp h
  obtain ⟨p, h2, h⟩ := Outcome.bind_eq_ok.mp h
  obtain ⟨r', h3, h⟩ := Outcome.bind_eq_ok.mp h
  have e := ok_inj h
  rw [Prod.mk.injEq] at e
  obtain ⟨rfl, rfl⟩ := e
  exact ⟨w, p, h1, h2, rfl, rfl, rfl, rfl, h3⟩

theorem residuals_cons {E : QuasiStatic.Env} {S : Materials σ ω} {N : σ} {dt : ℝ} {bv x : Nat → ℝ}
    {xs : List (Nat → ℝ)} {s s' : Data ω} {rs : List (Nat → ℝ)}
    (h : residuals E S N dt bv s (x :: xs) = .ok (s', rs)) :
    ∃ s1 r rs', residual E S N dt bv s x = .ok (s1, r) ∧
      residuals E S N dt bv s1 xs = .ok (s', rs') ∧ rs = r :: rs' := by
  obtain ⟨p, h1, h⟩ := Outcome.bind_eq_ok.mp
    (show (residual E S N dt bv s x >>= fun p => residuals E S N dt bv p.1 xs >>= fun q =>
      .ok (q.1, p.2 :: q.2)) = _ from h)
  obtain ⟨q, h2, h⟩ := Outcome.bind_eq_ok.mp h
  have e := ok_inj h
  rw [Prod.mk.injEq] at e
  obtain ⟨rfl, rfl⟩ := e
  exact ⟨p.1, p.2, q.2, h1, h2, rfl⟩

/-- **C46**, displacements only: in any sequence of evaluations, the residual at a vector is what a
single evaluation at that vector gives from any data that agrees in the vectors which the evaluation
does not replace, whatever was evaluated before and whatever force and block data were left. -/
theorem C46_mechanics (E : QuasiStatic.Env) (S : Materials σ ω) (hS : Pure S) (N : σ) (dt : ℝ)
    (bv : Nat → ℝ) (s s' : Data ω) (xs rs : List (Nat → ℝ))
    (h : residuals E S N dt bv s xs = .ok (s', rs)) :
    rs.length = xs.length ∧
    ∀ (i : Nat) (x r : Nat → ℝ), xs[i]? = some x → rs[i]? = some r →
      ∀ (s0 s0' : Data ω) (r0 : Nat → ℝ), SameInput s0.vecs s.vecs →
        residual E S N dt bv s0 x = .ok (s0', r0) → r = r0 := by
  induction xs generalizing s rs with
  | nil =>
    have e := ok_inj h
    rw [Prod.mk.injEq] at e
    rw [← e.2]
    exact ⟨rfl, fun i x r hx => by simp at hx⟩
  | cons x xs ih =>
    obtain ⟨s1, r, rs', h1, h2, rfl⟩ := residuals_cons h
    obtain ⟨l, ihr⟩ := ih s1 rs' h2
    obtain ⟨w, p, m1, m2, m3, m4, m5, _, m6⟩ := residual_ok h1
    refine ⟨by simp [l], ?_⟩
    intro i x' r' hx hr s0 s0' r0 hs0 h0
    cases i with
    | zero =>
      simp only [List.getElem?_cons_zero, Option.some.injEq] at hx hr
      subst hx hr
      obtain ⟨w0, p0, n1, n2, n3, n4, n5, _, n6⟩ := residual_ok h0
      have hw := moved_same hs0 n1 m1
      subst hw
      have hp := hS _ _ _ _ _ _ _ n2 m2
      rw [n5, hp, ← m5] at n6
      exact ok_inj (m6.symm.trans n6)
    | succ i =>
      rw [List.getElem?_cons_succ] at hx hr
      refine ihr i x' r' hx hr s0 s0' r0 ?_ h0
      intro t hy hv
      rw [hs0 t hy hv, m3]
      exact (moved_keeps m1 t hy hv).symm

/-! ## With fluid pressure -/

/-- One owned node without conditions, unknowns displacement and pressure. -/
noncomputable def wetEnv : QuasiStatic.Env where
  C := { owned := [0], sets := fun _ => none, x := fun _ => 0 }
  cs := {}
  dofs := Dof.setup Dof.fresh { pressure := some true }
  volume := fun _ => 1

theorem residualMulti_ok {E : QuasiStatic.Env} {extra : Nat} {S : Materials σ ω} {N : σ} {dt : ℝ}
    {bv bp x r : Nat → ℝ} {s s' : Data ω} (h : residualMulti E extra S N dt bv bp s x = .ok (s', r)) :
    ∃ w p, movedMulti E extra dt bv bp x s.vecs = .ok w ∧ S.blocks N s.work dt w = .ok p ∧
      s'.vecs = w ∧ s'.work = p.1 ∧ s'.force = accumulate s.force (p.2.map Prod.fst) ∧
      s'.fluidFlow = accumulate s.fluidFlow (p.2.map Prod.snd) ∧
      zeroedMulti E extra (fun i => unknownsForce extra p.2.length s'.force s'.fluidFlow i *
        E.volume (i / (3 + extra))) = .ok r := by
  unfold residualMulti at h
  obtain ⟨w, h1, h⟩ := Outcome.bind_eq_ok.mp h
  obtain ⟨p, h2, h⟩ := Outcome.bind_eq_ok.mp h
  obtain ⟨r', h3, h⟩ := Outcome.bind_eq_ok.mp h
  have e := ok_inj h
  rw [Prod.mk.injEq] at e
  obtain ⟨rfl, rfl⟩ := e
  exact ⟨w, p, h1, h2, rfl, rfl, rfl, rfl, h3⟩

theorem accumulate_eq : ∀ (cs : List (Nat → ℝ)) (f : Nat → ℝ) (i : Nat),
    accumulate f cs i = f i + accumulate (fun _ => 0) cs i := by
  intro cs
  induction cs with
  | nil => intro f i; simp [accumulate]
  | cons c cs ih =>
    intro f i
    show accumulate (fun i => f i + c i) cs i = f i + accumulate (fun i => 0 + c i) cs i
    rw [ih (fun i => f i + c i), ih (fun i => 0 + c i)]
    ring

theorem movedMulti_keeps {E : QuasiStatic.Env} {extra : Nat} {dt : ℝ} {bv bp x : Nat → ℝ} {w v : Vecs}
    (h : movedMulti E extra dt bv bp x w = .ok v) :
    v .u = w .u ∧ v .fluidPressureU = w .fluidPressureU ∧
      ∀ v', movedMulti E extra dt bv bp x v = .ok v' → v' = v := by
  unfold movedMulti at h
  split at h
  · exact absurd h (by simp)
  · rename_i hd
    have e := ok_inj h
    have hu : v .u = w .u := by
      rw [← e]
      rw [setVec_ne _ _ (by decide), setVec_ne _ _ (by decide), setVec_ne _ _ (by decide),
        setVec_ne _ _ (by decide)]
    have hp : v .fluidPressureU = w .fluidPressureU := by
      rw [← e]
      rw [setVec_ne _ _ (by decide), setVec_ne _ _ (by decide), setVec_ne _ _ (by decide),
        setVec_ne _ _ (by decide)]
    refine ⟨hu, hp, ?_⟩
    intro v' h'
    unfold movedMulti at h'
    rw [if_neg hd] at h'
    rw [← ok_inj h', hu, hp]
    conv_rhs => rw [← e]
    funext t
    by_cases h1 : t = .fluidPressureV
    · subst h1; rw [setVec_self, setVec_self]
    rw [setVec_ne _ _ h1, setVec_ne _ _ h1]
    by_cases h2 : t = .fluidPressureY
    · subst h2; rw [setVec_self, setVec_self]
    rw [setVec_ne _ _ h2, setVec_ne _ _ h2]
    by_cases h3 : t = .v
    · subst h3; rw [setVec_self, setVec_self]
    rw [setVec_ne _ _ h3, setVec_ne _ _ h3]
    by_cases h4 : t = .y
    · subst h4; rw [setVec_self, setVec_self]
    rw [setVec_ne _ _ h4, setVec_ne _ _ h4, ← e, setVec_ne _ _ h1, setVec_ne _ _ h2,
      setVec_ne _ _ h3, setVec_ne _ _ h4]

/-- **C46 is false** with fluid pressure: every evaluation adds the force and flow of the blocks to
those of the evaluations before.  After `n + 1` evaluations at the same vector the force density and
the flow density are what the first evaluation left plus `n` times the contribution of the blocks. -/
theorem C46_multiphysics_accumulates_partial (E : QuasiStatic.Env) (extra : Nat) (S : Materials σ ω)
    (hS : Pure S) (N : σ) (dt : ℝ) (bv bp x : Nat → ℝ) (s s1 : Data ω) (r1 : Nat → ℝ)
    (h1 : residualMulti E extra S N dt bv bp s x = .ok (s1, r1)) (n : Nat) (s2 : Data ω)
    (rs : List (Nat → ℝ))
    (h : residualsMulti E extra S N dt bv bp s1 (List.replicate n x) = .ok (s2, rs)) :
    ∀ i, s2.force i = s1.force i + n * (s1.force i - s.force i) ∧
      s2.fluidFlow i = s1.fluidFlow i + n * (s1.fluidFlow i - s.fluidFlow i) := by
  obtain ⟨w, p, a1, a2, a3, a4, a5, a6, _⟩ := residualMulti_ok h1
  have key : ∀ (n : Nat) (t t2 : Data ω) (rs : List (Nat → ℝ)), t.vecs = w →
      residualsMulti E extra S N dt bv bp t (List.replicate n x) = .ok (t2, rs) →
      ∀ i, t2.force i = t.force i + n * (s1.force i - s.force i) ∧
        t2.fluidFlow i = t.fluidFlow i + n * (s1.fluidFlow i - s.fluidFlow i) := by
    intro n
    induction n with
    | zero =>
      intro t t2 rs _ h i
      have e := ok_inj h
      rw [Prod.mk.injEq] at e
      rw [← e.1]
      simp
    | succ n ih =>
      intro t t2 rs ht h i
      obtain ⟨q, b1, h⟩ := Outcome.bind_eq_ok.mp
        (show (residualMulti E extra S N dt bv bp t x >>= fun p =>
          residualsMulti E extra S N dt bv bp p.1 (List.replicate n x) >>= fun q =>
          .ok (q.1, p.2 :: q.2)) = _ from h)
      obtain ⟨q', b2, h⟩ := Outcome.bind_eq_ok.mp h
      have e := ok_inj h
      rw [Prod.mk.injEq] at e
      obtain ⟨rfl, _⟩ := e
      obtain ⟨w', p', c1, c2, c3, c4, c5, c6, _⟩ := residualMulti_ok b1
      rw [ht] at c1
      have hw : w' = w := (movedMulti_keeps a1).2.2 _ c1
      subst hw
      have hp := hS _ _ _ _ _ _ _ c2 a2
      obtain ⟨i1, i2⟩ := ih q.1 q'.1 q'.2 c3 b2 i
      rw [i1, i2, c5, c6, a5, a6, hp, accumulate_eq _ t.force, accumulate_eq _ t.fluidFlow,
        accumulate_eq _ s.force, accumulate_eq _ s.fluidFlow]
      push_cast
      constructor <;> ring
  exact key n s1 s2 rs a3 h

/-- The zeros of the data in the examples. -/
noncomputable def still : Data Unit where
  vecs := fun _ _ => 0
  work := ()
  force := fun _ => 0
  fluidFlow := fun _ => 0

/-- One block with constant force density `a` and flow density `b`. -/
noncomputable def constant (a b : ℝ) : Materials Unit Unit where
  blocks := fun _ _ _ _ => .ok ((), [(fun _ => a, fun _ => b)])

theorem constant_pure (a b : ℝ) : Pure (constant a b) := by
  intro N wk wk' dt w p p' h h'
  rw [← ok_inj h, ← ok_inj h']

theorem constant_eval (a b : ℝ) (s : Data Unit) :
    ∃ v, residualMulti wetEnv 1 (constant a b) () 1 (fun _ => 0) (fun _ => 0) s (fun _ => 0) =
      .ok (⟨v, (), accumulate s.force [fun _ => a], accumulate s.fluidFlow [fun _ => b]⟩,
        fun i => [s.force 0 + a, s.force 1 + a, s.force 2 + a, s.fluidFlow 0 + b].getD i 0) := by
  have hm : ∀ w : Vecs, ∃ v, movedMulti wetEnv 1 1 (fun _ => 0) (fun _ => 0) (fun _ => 0) w = .ok v := by
    intro w; unfold movedMulti; rw [if_neg (by norm_num)]; exact ⟨_, rfl⟩
  have hz : ∀ f : Nat → ℝ, zeroedMulti wetEnv 1 f = .ok fun i => [f 0, f 1, f 2, f 3].getD i 0 :=
    fun f => rfl
  obtain ⟨v, hv⟩ := hm s.vecs
  refine ⟨v, ?_⟩
  unfold residualMulti
  rw [hv]
  simp only [Outcome.ok_bind, constant]
  rw [hz]
  simp only [Outcome.ok_bind]
  congr 2
  funext i
  congr 1
  simp [unknownsForce, combined, accumulate, wetEnv]

theorem constant_twice (a b : ℝ) :
    ∃ s', residualsMulti wetEnv 1 (constant a b) () 1 (fun _ => 0) (fun _ => 0) still
      [fun _ => 0, fun _ => 0] = .ok (s', [fun i => [0 + a, 0 + a, 0 + a, 0 + b].getD i 0,
        fun i => [0 + a + a, 0 + a + a, 0 + a + a, 0 + b + b].getD i 0]) := by
  obtain ⟨v, h1⟩ := constant_eval a b still
  obtain ⟨v', h2⟩ := constant_eval a b
    ⟨v, (), accumulate still.force [fun _ => a], accumulate still.fluidFlow [fun _ => b]⟩
  simp only [residualsMulti]
  rw [h1]
  simp only [Outcome.ok_bind]
  rw [h2]
  exact ⟨_, rfl⟩

/-- The hypotheses of the theorem above, met by a constant contribution of one and two. -/
example : ∃ s1 r1 s2 rs,
    residualMulti wetEnv 1 (constant 1 2) () 1 (fun _ => 0) (fun _ => 0) still (fun _ => 0) = .ok (s1, r1) ∧
    residualsMulti wetEnv 1 (constant 1 2) () 1 (fun _ => 0) (fun _ => 0) s1
      (List.replicate 1 fun _ => 0) = .ok (s2, rs) ∧ s2.force 0 = 2 := by
  obtain ⟨v, h1⟩ := constant_eval 1 2 still
  obtain ⟨v', h2⟩ := constant_eval 1 2
    ⟨v, (), accumulate still.force [fun _ => 1], accumulate still.fluidFlow [fun _ => 2]⟩
  have h3 : ∀ (s s2 : Data Unit) (r : Nat → ℝ),
      residualMulti wetEnv 1 (constant 1 2) () 1 (fun _ => 0) (fun _ => 0) s (fun _ => 0) = .ok (s2, r) →
      residualsMulti wetEnv 1 (constant 1 2) () 1 (fun _ => 0) (fun _ => 0) s
        (List.replicate 1 fun _ => 0) = .ok (s2, [r]) := by
    intro s s2 r h
    show residualsMulti _ _ _ _ _ _ _ _ [fun _ => 0] = _
    simp only [residualsMulti]
    rw [h]
    rfl
  refine ⟨_, _, _, _, h1, h3 _ _ _ h2, ?_⟩
  show (0 : ℝ) + 1 + 1 = 2
  norm_num

/-- **C46 is false** with fluid pressure: two evaluations in a row at the same vector return
different residuals, although the contribution of the only block is the same constant. -/
theorem C46_multiphysics_history_dependent :
    ¬ ∀ (E : QuasiStatic.Env) (S : Materials Unit Unit), Pure S → ∀ (dt : ℝ) (bv bp x : Nat → ℝ)
      (s s' : Data Unit) (r1 r2 : Nat → ℝ),
      residualsMulti E 1 S () dt bv bp s [x, x] = .ok (s', [r1, r2]) → r1 = r2 := by
  intro H
  obtain ⟨s', h⟩ := constant_twice 1 2
  have e := congrFun (H wetEnv (constant 1 2) (constant_pure 1 2) _ _ _ _ _ _ _ _ h) 0
  have e' : (0 : ℝ) + 1 = 0 + 1 + 1 := e
  norm_num at e'

/-- Displacements only: one block with constant force density `a` on the free node. -/
theorem constant_mechanics (a dt : ℝ) (hdt : dt ≠ 0) (bv x : Nat → ℝ) (s : Data Unit) :
    ∃ v, residual QuasiStatic.demoEnv (constant a 0) () dt bv s x =
      .ok (⟨v, (), accumulate (fun _ => 0) [fun _ => a], s.fluidFlow⟩,
        fun i => [a + v .externalForce 0, a + v .externalForce 1, a + v .externalForce 2].getD i 0) ∧
      v .externalForce = s.vecs .externalForce := by
  have hm : ∃ v, moved QuasiStatic.demoEnv dt bv x s.vecs = .ok v := by
    unfold moved; rw [if_neg hdt]; exact ⟨_, rfl⟩
  have hz : ∀ f : Nat → ℝ, QuasiStatic.zeroed QuasiStatic.demoEnv f =
      .ok fun i => [f 0, f 1, f 2].getD i 0 := fun f => rfl
  obtain ⟨v, hv⟩ := hm
  refine ⟨v, ?_, moved_keeps hv _ (by decide) (by decide)⟩
  unfold residual
  rw [hv]
  simp only [Outcome.ok_bind, constant]
  rw [hz]
  simp only [Outcome.ok_bind]
  congr 2
  funext i
  congr 1
  simp [accumulate, QuasiStatic.demoEnv]

/-- The hypotheses of C46 for displacements only, met by two evaluations on a free node. -/
example : ∃ s' rs, residuals QuasiStatic.demoEnv (constant 1 0) () 2 (fun _ => 0) still
    [fun _ => 3, fun _ => 4] = .ok (s', rs) ∧ Pure (constant 1 0) := by
  obtain ⟨v, h1, _⟩ := constant_mechanics 1 2 (by norm_num) (fun _ => 0) (fun _ => 3) still
  obtain ⟨v', h2, _⟩ := constant_mechanics 1 2 (by norm_num) (fun _ => 0) (fun _ => 4)
    ⟨v, (), accumulate (fun _ => 0) [fun _ => 1], still.fluidFlow⟩
  have h3 : ∀ (s s1 s2 : Data Unit) (x x' r r' : Nat → ℝ),
      residual QuasiStatic.demoEnv (constant 1 0) () 2 (fun _ => 0) s x = .ok (s1, r) →
      residual QuasiStatic.demoEnv (constant 1 0) () 2 (fun _ => 0) s1 x' = .ok (s2, r') →
      residuals QuasiStatic.demoEnv (constant 1 0) () 2 (fun _ => 0) s [x, x'] = .ok (s2, [r, r']) := by
    intro s s1 s2 x x' r r' h h'
    simp only [residuals]
    rw [h]
    simp only [Outcome.ok_bind]
    rw [h']
    rfl
  exact ⟨_, _, h3 _ _ _ _ _ _ _ h1 h2, constant_pure 1 0⟩

/-! ## C72 -/

/-- **C72**, displacements only: the residual returned to NOX is zero exactly if at every free
component of every owned node with volume the internal force density, summed over the blocks, and
the applied body force balance; at a prescribed component it is always zero.  The internal force is that
of the configuration in which the trial solution is added to the displacements, with the velocities that
lead there plus those of the prescribed displacements. -/
theorem C72_mechanics (E : QuasiStatic.Env) (ds : List Definition)
    (hcs : makeConditions ds = .ok E.cs) (hm : E.dofs = dispOnly) (S : Materials σ ω) (N : σ) (dt : ℝ)
    (bv x r : Nat → ℝ) (s s' : Data ω) (h : residual E S N dt bv s x = .ok (s', r)) (g l k : Nat)
    (hl : lid E.C.owned g = some l) (hk : k < 3) (hv : E.volume l ≠ 0) :
    ∃ p, S.blocks N s.work dt s'.vecs = .ok p ∧
    (∀ i, s'.vecs .y i = E.C.x i + s.vecs .u i + x i) ∧ (∀ i, s'.vecs .v i = x i / dt + bv i) ∧
    (Constrained E.dofs E.C.sets E.cs.boundary g .displacement k → r (l * 3 + k) = 0) ∧
    (¬ Constrained E.dofs E.C.sets E.cs.boundary g .displacement k → (r (l * 3 + k) = 0 ↔
      (p.2.map fun c => c.1 (l * 3 + k)).sum + s.vecs .externalForce (l * 3 + k) = 0)) := by
  obtain ⟨w, p, a1, a2, a3, a4, a5, a6, a7⟩ := residual_ok h
  have hyv : (∀ i, w .y i = E.C.x i + s.vecs .u i + x i) ∧ ∀ i, w .v i = x i / dt + bv i := by
    unfold moved at a1
    split at a1
    · exact absurd a1 (by simp)
    · rw [← ok_inj a1]
      refine ⟨fun i => ?_, fun i => ?_⟩
      · rw [setVec_ne _ _ (by decide), setVec_self]
      · rw [setVec_self]
  refine ⟨p, by rw [a3]; exact a2, by rw [a3]; exact hyv.1, by rw [a3]; exact hyv.2,
    (QuasiStatic.zeroed_exact hcs hm a7 hl hk).1, ?_⟩
  intro hn
  have hdiv : (l * 3 + k) / 3 = l := by omega
  have hsum : ∀ (cs : List (Nat → ℝ)) (f : Nat → ℝ) (i : Nat),
      accumulate f cs i = f i + (cs.map fun c => c i).sum := by
    intro cs
    induction cs with
    | nil => intro f i; simp [accumulate]
    | cons c cs ih =>
      intro f i
      show accumulate (fun i => f i + c i) cs i = _
      rw [ih]; simp only [List.map_cons, List.sum_cons]; ring
  rw [(QuasiStatic.zeroed_exact hcs hm a7 hl hk).2 hn, hdiv, mul_eq_zero, or_iff_left hv, a5, hsum,
    moved_keeps a1 .externalForce (by decide) (by decide), zero_add, List.map_map]
  rfl

example : ∃ s' r, residual QuasiStatic.demoEnv (constant 1 0) () 2 (fun _ => 0)
    { still with vecs := fun _ _ => -1 } (fun _ => 3) = .ok (s', r) ∧ r 0 = 0 := by
  obtain ⟨v, h1, h2⟩ := constant_mechanics 1 2 (by norm_num) (fun _ => 0) (fun _ => 3)
    { still with vecs := fun _ _ => -1 }
  refine ⟨_, _, h1, ?_⟩
  show (1 : ℝ) + v .externalForce 0 = 0
  rw [h2]
  norm_num

/-- **C72 is false** with fluid pressure: the residual vanishes at a node whose internal force is
zero although a body force of one acts on it. -/
theorem C72_multiphysics_body_force_ignored :
    ¬ ∀ (E : QuasiStatic.Env) (S : Materials Unit Unit) (s s' : Data Unit) (r x : Nat → ℝ) (p : Unit × _),
      s.force = (fun _ => 0) → s.fluidFlow = (fun _ => 0) →
      residualMulti E 1 S () 1 (fun _ => 0) (fun _ => 0) s x = .ok (s', r) →
      S.blocks () s.work 1 s'.vecs = .ok p → E.volume 0 ≠ 0 → E.cs.boundary = [] →
      lid E.C.owned 0 = some 0 → r 0 = 0 →
      (p.2.map fun c => c.1 0).sum + s.vecs .externalForce 0 = 0 := by
  intro H
  obtain ⟨v, h1⟩ := constant_eval 0 0 { still with vecs := fun _ _ => 1 }
  have := H wetEnv (constant 0 0) _ _ _ _ _ rfl rfl h1 rfl one_ne_zero rfl rfl
    (show (0 : ℝ) + 0 = 0 by norm_num)
  have e : (0 : ℝ) + 0 + 1 = 0 := this
  norm_num at e

/-- With fluid pressure, what holds: the residual does not depend on the body force at all, unless
a material reads it. -/
theorem C72_multiphysics_partial (E : QuasiStatic.Env) (extra : Nat) (S : Materials σ ω) (N : σ)
    (hS : ∀ wk dt w f, S.blocks N wk dt (setVec w .externalForce f) = S.blocks N wk dt w) (dt : ℝ)
    (bv bp x r : Nat → ℝ) (s s' : Data ω) (f : Nat → ℝ)
    (h : residualMulti E extra S N dt bv bp s x = .ok (s', r)) :
    ∃ s'', residualMulti E extra S N dt bv bp { s with vecs := setVec s.vecs .externalForce f } x =
      .ok (s'', r) ∧ s''.force = s'.force := by
  obtain ⟨w, p, a1, a2, a3, a4, a5, a6, a7⟩ := residualMulti_ok h
  have hm : movedMulti E extra dt bv bp x (setVec s.vecs .externalForce f) =
      .ok (setVec w .externalForce f) := by
    unfold movedMulti at a1 ⊢
    split at a1
    · exact absurd a1 (by simp)
    · rename_i hd
      rw [if_neg hd, ← ok_inj a1]
      congr 1
      funext t
      unfold setVec
      cases t <;> simp
  refine ⟨⟨setVec w .externalForce f, p.1, s'.force, s'.fluidFlow⟩, ?_, rfl⟩
  unfold residualMulti
  rw [hm]
  simp only [Outcome.ok_bind]
  rw [hS, a2]
  simp only [Outcome.ok_bind]
  rw [← a5, ← a6, a7]
  rfl

example : ∀ wk dt w f, (constant 1 2).blocks () wk dt (setVec w .externalForce f) =
    (constant 1 2).blocks () wk dt w := fun _ _ _ _ => rfl

end Verif.Nox
