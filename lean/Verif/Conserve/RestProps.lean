import Verif.Conserve.FrameProps
import Verif.Conserve.CausalProps

/-! C264: explicit dynamics does not disturb a body that is free of deformation. -/

noncomputable section

namespace Verif.Conserve

open Verif Verif.Neigh Verif.Mech Verif.Explicit

/-- The elastic material has no forces in a rigidly moved reference configuration. -/
theorem elastic_quiet {C : Config} (ht : C.thermal = none) {nbs : List (List Nat)} (hp : ∀ p j, HasBond nbs p j → C.m p ≠ 0 ∧ C.x j ≠ C.x p)
    (K mu : ℝ) {Q : Matrix (Fin 3) (Fin 3) ℝ} (hQ : Q.transpose * Q = 1) (c : V3) (b : Unit) (n : Nat) (w : BC.Vecs)
    (hw : ∀ l, at3 (w .y) l = Q.mulVec (C.x l) + c) : elasticEval C K mu nbs.length (encode nbs) b n w = .ok ((), fun _ => 0) := by
  have hy : at3 (w .y) = moved Q c C.x := funext hw
  have hprop : Proper { C with y := at3 (w .y) } nbs := by
    intro p j hb
    obtain ⟨h1, h2⟩ := hp p j hb
    refine ⟨h1, fun e => h2 ?_, h2⟩
    have e' : at3 (w .y) j = at3 (w .y) p := e
    rw [hw, hw] at e'
    have e2 := congrArg (Q.transpose.mulVec) (add_right_cancel e')
    rwa [Matrix.mulVec_mulVec, Matrix.mulVec_mulVec, hQ, Matrix.one_mulVec, Matrix.one_mulVec] at e2
  obtain ⟨⟨theta, h, -⟩, -⟩ := C20_rigid { C with y := at3 (w .y) } Q hQ c hy ht nbs hprop K mu (fun _ => 0)
  unfold elasticEval
  rw [h]
  rfl

/-- **C264** A body of the elastic material that begins undeformed, rotated, reflected or shifted, and with the same velocity everywhere (possibly zero)
can be computed for any number of steps, stays undeformed and goes on with this velocity. -/
theorem C264_uniform (P : Params) (X : BC.Ctx) (cs : BC.Conditions) (hcs : BC.makeConditions [] = .ok cs)
    (hd : ∀ i < P.length, P.density (i / 3) ≠ 0) (C : Config) (ht : C.thermal = none) (nbs : List (List Nat))
    (hp : ∀ p j, HasBond nbs p j → C.m p ≠ 0 ∧ C.x j ≠ C.x p) (K mu : ℝ) (Q : Matrix (Fin 3) (Fin 3) ℝ) (hQ : Q.transpose * Q = 1) (c d : V3)
    (vecs : BC.Vecs) (hy : ∀ i, vecs .y i = X.x i + vecs .u i) (hm : ∀ l, at3 (vecs .y) l = Q.mulVec (C.x l) + d)
    (hv : ∀ l, at3 (vecs .v) l = c) :
    ∃ s0, initialStep P X cs (elasticEval C K mu nbs.length (encode nbs)) vecs () = .ok s0 ∧ ∀ n,
      ∃ s, run P X cs (elasticEval C K mu nbs.length (encode nbs)) s0 n = .ok s ∧ ∀ l,
        at3 (s.vecs .y) l = Q.mulVec (C.x l) + d + (n * P.dt) • c ∧ at3 (s.vecs .v) l = c ∧ at3 s.a l = 0 := by
  have hq := elastic_quiet ht hp K mu hQ
  obtain ⟨s0, h0, -, ha0, hu0, hv0, hy0⟩ := initial_intro (P := P) (X := X) hcs (elasticEval C K mu nbs.length (encode nbs)) vecs () hd () _
    (hq d () 0 vecs hm)
  have hzero : ∀ {a : Nat → ℝ}, (∀ i, a i = 0 / P.density (i / 3)) → ∀ l, at3 a l = 0 := by
    intro a h l
    funext k
    show a _ = 0
    rw [h, zero_div]
  refine ⟨s0, h0, ?_⟩
  suffices hall : ∀ n, ∃ s, run P X cs (elasticEval C K mu nbs.length (encode nbs)) s0 n = .ok s ∧ (∀ i, s.vecs .y i = X.x i + s.vecs .u i) ∧ ∀ l,
      at3 (s.vecs .y) l = Q.mulVec (C.x l) + d + (n * P.dt) • c ∧ at3 (s.vecs .v) l = c ∧ at3 s.a l = 0 by
    intro n
    obtain ⟨s, h1, -, h2⟩ := hall n
    exact ⟨s, h1, h2⟩
  intro n
  induction n with
  | zero =>
    refine ⟨s0, rfl, fun i => by rw [hy0, hu0, hy], fun l => ⟨?_, ?_, hzero ha0 l⟩⟩
    · rw [funext hy0, hm]
      simp
    · rw [funext hv0, hv]
  | succ n ih =>
    obtain ⟨s, h1, h2, h3⟩ := ih
    obtain ⟨w, hw, hadv⟩ := advance_intro (X := X) hcs (elasticEval C K mu nbs.length (encode nbs)) s (n + 1) hd
    have hwy : ∀ l, at3 (w .y) l = Q.mulVec (C.x l) + (d + ((n + 1 : ℕ) * P.dt) • c) := by
      intro l
      obtain ⟨j1, j2, j3⟩ := h3 l
      have e : at3 (w .y) l = at3 (s.vecs .y) l + P.dt • (at3 (s.vecs .v) l + (P.dt / 2) • at3 s.a l) := by
        funext k
        show w .y _ = s.vecs .y _ + P.dt * (s.vecs .v _ + P.dt / 2 * s.a _)
        rw [hw, h2]
        ring
      rw [e, j1, j2, j3]
      push_cast
      module
    obtain ⟨s', hs', -, ha'⟩ := hadv () _ (hq _ s.blocks (n + 1) w hwy)
    obtain ⟨w', f', -, hu1, hyw1, -, -, hu1', hyy1, hv1⟩ := advance_free hcs hs'
    refine ⟨s', by unfold run; rw [h1]; exact hs', fun i => by rw [hyy1, hyw1, hu1'], fun l => ⟨?_, ?_, hzero ha' l⟩⟩
    · have e : ∀ i, s'.vecs .y i = w .y i := fun i => by rw [hyy1, hyw1, hu1, hw]
      rw [funext e, hwy, add_assoc]
    · have e : at3 (s'.vecs .v) l = at3 (s.vecs .v) l + (P.dt / 2) • at3 s.a l + (P.dt / 2) • at3 s'.a l := funext fun k => hv1 _
      rw [e, (h3 l).2.1, (h3 l).2.2, hzero ha' l]
      simp

/-- The chain meets the hypotheses of C264, turned by a quarter and moving. -/
example : chain.thermal = none ∧ (∀ p j, HasBond chainNbs p j → chain.m p ≠ 0 ∧ chain.x j ≠ chain.x p) ∧
    (∀ i < chainParams.length, chainParams.density (i / 3) ≠ 0) ∧ ∃ vecs : BC.Vecs, (∀ i, vecs .y i = barCtx.x i + vecs .u i) ∧
    (∀ l, at3 (vecs .y) l = (!![0, -1, 0; 1, 0, 0; 0, 0, 1] : Matrix (Fin 3) (Fin 3) ℝ).mulVec (chain.x l) + ![1, 2, 3]) ∧
    ∀ l, at3 (vecs .v) l = ![0, 0, 1] := by
  refine ⟨rfl, ?_, fun _ _ => by simp [chainParams], ?_⟩
  · rintro p j ⟨ns, h1, h2⟩
    refine ⟨one_ne_zero, fun e => ?_⟩
    have e0 : (j : ℝ) = (p : ℝ) := congrFun e 0
    have := Nat.cast_injective e0
    rcases chain_bond h1 h2 with h | h <;> omega
  · let flat : (Nat → V3) → Nat → ℝ := fun F i => F (i / 3) ⟨i % 3, by omega⟩
    have hflat : ∀ F l, at3 (flat F) l = F l := by
      intro F l
      funext k
      have e1 : (l * 3 + (k : Nat)) / 3 = l := by have := k.isLt; omega
      have e2 : (⟨(l * 3 + (k : Nat)) % 3, by omega⟩ : Fin 3) = k := by
        apply Fin.ext; have := k.isLt; show (l * 3 + (k : Nat)) % 3 = k; omega
      simp only [at3, flat, e1, e2]
    let Y := flat fun l => (!![0, -1, 0; 1, 0, 0; 0, 0, 1] : Matrix (Fin 3) (Fin 3) ℝ).mulVec (chain.x l) + ![1, 2, 3]
    let V := flat fun _ => ![0, 0, 1]
    refine ⟨fun t => match t with
      | .y => Y
      | .u => fun i => Y i - barCtx.x i
      | .v => V
      | _ => fun _ => 0, fun i => ?_,
      fun l => hflat (fun l => (!![0, -1, 0; 1, 0, 0; 0, 0, 1] : Matrix (Fin 3) (Fin 3) ℝ).mulVec (chain.x l) + ![1, 2, 3]) l, fun l => hflat (fun _ => ![0, 0, 1]) l⟩
    show Y i = barCtx.x i + (Y i - barCtx.x i)
    ring

end Verif.Conserve
