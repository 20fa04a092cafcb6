import Verif.Conserve.CausalSpec
import Verif.Conserve.Props
import Verif.Outputs.GlobalLemmas

/-! C262 and C263: superposition and the speed of propagation in explicit dynamics of the linear material. -/

noncomputable section

namespace Verif.Conserve

open Verif Verif.Neigh Verif.Mech Verif.Explicit

variable {σ : Type}

/-- The force at a point depends only on the points that belong to a neighborhood together with it. -/
theorem force_local {C : Config} {K mu : ℝ} {S : Lps.Stored} {nbs : List (List Nat)} {ghost : (Nat → ℝ) → Nat → ℝ}
    {u w : Nat → V3} {theta theta' : Nat → ℝ} {F F' : Nat → V3}
    (h : Lps.evaluate (Lps.displaced C u) .cells K mu S nbs.length (encode nbs) ghost = .ok (theta, F))
    (h' : Lps.evaluate (Lps.displaced C w) .cells K mu S nbs.length (encode nbs) ghost = .ok (theta', F')) {l : Nat}
    (hl : ∀ l', Share nbs l l' → u l' = w l') : F l = F' l := by
  rw [(Lps.evaluate_at h).2 l, (Lps.evaluate_at h').2 l]
  congr 1
  apply List.map_congr_left
  intro b hb
  obtain ⟨ns, h1, h2⟩ := mem_bondsOf hb
  by_cases hbl : b.i = l ∨ b.j = l
  · have hin : l ∈ b.i :: ns := by
      rcases hbl with rfl | rfl
      · exact List.mem_cons_self ..
      · exact List.mem_cons_of_mem _ h2
    have hall : ∀ j ∈ b.i :: ns, u j = w j := fun j hj => hl j ⟨b.i, ns, h1, hin, hj⟩
    have hi : u b.i = w b.i := hall _ (List.mem_cons_self ..)
    have hal : ∀ c ∈ bondsOf nbs, c.i = b.i → Lps.along C u c = Lps.along C w c := by
      intro c hc hci
      obtain ⟨ns', h3, h4⟩ := mem_bondsOf hc
      rw [hci, h1] at h3
      have := Option.some.inj h3
      subst this
      unfold Lps.along
      rw [hci, hi, hall _ (List.mem_cons_of_mem _ h4)]
    have hd : Lps.dil C S nbs u b.i = Lps.dil C S nbs w b.i := by
      unfold Lps.dil
      congr 2
      apply List.map_congr_left
      intro c hc
      obtain ⟨hc1, hc2⟩ := List.mem_filter.1 hc
      rw [hal c hc1 (by simpa using hc2)]
    rw [hd, hal b hb rfl]
  · unfold pull
    have h3 : ¬ b.i = l := fun e => hbl (Or.inl e)
    have h4 : ¬ b.j = l := fun e => hbl (Or.inr e)
    simp only [if_neg h3, if_neg h4]

theorem share_within {nbs : List (List Nat)} (hN : Within nbs nbs.length) {l l' : Nat} (h : Share nbs l l') : l' < nbs.length := by
  obtain ⟨i, ns, h1, -, h2⟩ := h
  have hi := (List.getElem?_eq_some_iff.1 h1).1
  rcases List.mem_cons.1 h2 with rfl | h2
  · exact hi
  · exact hN.2 ns (List.mem_of_getElem? h1) _ h2

theorem initial_free {P : Params} {X : BC.Ctx} {cs : BC.Conditions} (hcs : BC.makeConditions [] = .ok cs) {eval : Eval σ} {vecs : BC.Vecs}
    {b : σ} {s : State σ} (h : initialStep P X cs eval vecs b = .ok s) :
    ∃ f, eval b 0 vecs = .ok (s.blocks, f) ∧ (∀ i, s.a i = f i / P.density (i / 3)) ∧ s.vecs .u = vecs .u ∧ s.vecs .v = vecs .v := by
  obtain ⟨-, w1, f, he, hbd, hfc, ha⟩ := initialStep_ok h
  obtain ⟨hb0, hf0⟩ := no_conditions hcs
  rw [hb0] at hbd
  rw [hf0] at hfc
  have e1 : vecs = w1 := BC.ok_inj hbd
  have e2 : BC.clearForce w1 = s.vecs := BC.ok_inj hfc
  obtain ⟨-, ha⟩ := acceleration_ok ha
  refine ⟨f, he, fun i => ?_, ?_, ?_⟩
  · rw [ha, ← e2]
    simp [BC.clearForce]
  · rw [← e2, ← e1]
    funext i
    simp [BC.clearForce]
  · rw [← e2, ← e1]
    funext i
    simp [BC.clearForce]

theorem acc_at {P : Params} {a f : Nat → ℝ} (h : ∀ i, a i = f i / P.density (i / 3)) (l : Nat) : at3 a l = (P.density l)⁻¹ • at3 f l := by
  funext k
  have e : (l * 3 + (k : Nat)) / 3 = l := by have := k.isLt; omega
  show a (l * 3 + k) = (P.density l)⁻¹ * f (l * 3 + k)
  rw [h, e, div_eq_inv_mul]

/-- What a step without conditions does to a point. -/
theorem advance_at {P : Params} {X : BC.Ctx} {cs : BC.Conditions} (hcs : BC.makeConditions [] = .ok cs) {eval : Eval σ} {s s' : State σ} {n : Nat}
    (h : advance P X cs eval s n = .ok s') :
    ∃ w f, eval s.blocks n w = .ok (s'.blocks, f) ∧ ∀ l,
      at3 (w .u) l = at3 (s.vecs .u) l + P.dt • (at3 (s.vecs .v) l + (P.dt / 2) • at3 s.a l) ∧ at3 (s'.vecs .u) l = at3 (w .u) l ∧
      at3 s'.a l = (P.density l)⁻¹ • at3 f l ∧
      at3 (s'.vecs .v) l = at3 (s.vecs .v) l + (P.dt / 2) • at3 s.a l + (P.dt / 2) • at3 s'.a l := by
  obtain ⟨w, f, he, hu, -, -, ha, hu', -, hv'⟩ := advance_free hcs h
  exact ⟨w, f, he, fun l => ⟨funext fun k => hu _, funext fun k => hu' _, acc_at ha l, funext fun k => hv' _⟩⟩

/-- **C262** Superposition: if a body of the linear LPS material begins with a combination of the displacements and velocities of two other
analyses, it is at every step in the same combination of their states. -/
theorem C262_superposition (P : Params) (X : BC.Ctx) (cs : BC.Conditions) (hcs : BC.makeConditions [] = .ok cs) (C : Config) (K mu : ℝ)
    (S : Lps.Stored) (nbs : List (List Nat)) (hN : Within nbs nbs.length) (ghost : (Nat → ℝ) → Nat → ℝ) (eval : Eval σ)
    (hL : LinearLps C K mu S nbs ghost eval) (a b : ℝ) (v1 v2 v3 : BC.Vecs)
    (hu : ∀ l < nbs.length, at3 (v3 .u) l = a • at3 (v1 .u) l + b • at3 (v2 .u) l)
    (hv : ∀ l < nbs.length, at3 (v3 .v) l = a • at3 (v1 .v) l + b • at3 (v2 .v) l) (b1 b2 b3 : σ) (s1 s2 s3 : State σ)
    (h1 : initialStep P X cs eval v1 b1 = .ok s1) (h2 : initialStep P X cs eval v2 b2 = .ok s2) (h3 : initialStep P X cs eval v3 b3 = .ok s3)
    (n : Nat) (r1 r2 r3 : State σ) (k1 : run P X cs eval s1 n = .ok r1) (k2 : run P X cs eval s2 n = .ok r2) (k3 : run P X cs eval s3 n = .ok r3) :
    ∀ l < nbs.length, at3 (r3.vecs .u) l = a • at3 (r1.vecs .u) l + b • at3 (r2.vecs .u) l ∧
      at3 (r3.vecs .v) l = a • at3 (r1.vecs .v) l + b • at3 (r2.vecs .v) l ∧ at3 r3.a l = a • at3 r1.a l + b • at3 r2.a l := by
  have hforce : ∀ {b1 b2 b3 b1' b2' b3' : σ} {m : Nat} {w1 w2 w3 : BC.Vecs} {f1 f2 f3 : Nat → ℝ}, eval b1 m w1 = .ok (b1', f1) →
      eval b2 m w2 = .ok (b2', f2) → eval b3 m w3 = .ok (b3', f3) →
      (∀ l < nbs.length, at3 (w3 .u) l = a • at3 (w1 .u) l + b • at3 (w2 .u) l) →
      ∀ l < nbs.length, at3 f3 l = a • at3 f1 l + b • at3 f2 l := by
    intro b1 b2 b3 b1' b2' b3' m w1 w2 w3 f1 f2 f3 e1 e2 e3 hw l hl
    obtain ⟨t1, F1, q1, p1⟩ := hL _ _ _ _ _ e1
    obtain ⟨t2, F2, q2, p2⟩ := hL _ _ _ _ _ e2
    obtain ⟨t3, F3, q3, p3⟩ := hL _ _ _ _ _ e3
    obtain ⟨t, G, hG, -, hGF⟩ := Lps.C136_linear q1 q2 a b
    rw [p1 l hl, p2 l hl, p3 l hl, ← hGF]
    exact force_local q3 hG fun l' h => hw l' (share_within hN h)
  induction n generalizing r1 r2 r3 with
  | zero =>
    have q1 := BC.ok_inj k1
    have q2 := BC.ok_inj k2
    have q3 := BC.ok_inj k3
    subst q1 q2 q3
    obtain ⟨f1, e1, a1, u1, w1⟩ := initial_free hcs h1
    obtain ⟨f2, e2, a2, u2, w2⟩ := initial_free hcs h2
    obtain ⟨f3, e3, a3, u3, w3⟩ := initial_free hcs h3
    intro l hl
    rw [u1, u2, u3, w1, w2, w3]
    refine ⟨hu l hl, hv l hl, ?_⟩
    rw [acc_at a1, acc_at a2, acc_at a3, hforce e1 e2 e3 hu l hl]
    module
  | succ n ih =>
    obtain ⟨x1, g1, j1⟩ := run_succ k1
    obtain ⟨x2, g2, j2⟩ := run_succ k2
    obtain ⟨x3, g3, j3⟩ := run_succ k3
    have hi := ih x1 x2 x3 g1 g2 g3
    obtain ⟨w1, f1, e1, p1⟩ := advance_at hcs j1
    obtain ⟨w2, f2, e2, p2⟩ := advance_at hcs j2
    obtain ⟨w3, f3, e3, p3⟩ := advance_at hcs j3
    have hw : ∀ l < nbs.length, at3 (w3 .u) l = a • at3 (w1 .u) l + b • at3 (w2 .u) l := by
      intro l hl
      obtain ⟨i1, i2, i3⟩ := hi l hl
      rw [(p1 l).1, (p2 l).1, (p3 l).1, i1, i2, i3]
      module
    intro l hl
    obtain ⟨i1, i2, i3⟩ := hi l hl
    have ha : at3 r3.a l = a • at3 r1.a l + b • at3 r2.a l := by
      rw [(p1 l).2.2.1, (p2 l).2.2.1, (p3 l).2.2.1, hforce e1 e2 e3 hw l hl]
      module
    refine ⟨?_, ?_, ha⟩
    · rw [(p1 l).2.1, (p2 l).2.1, (p3 l).2.1, hw l hl]
    · rw [(p1 l).2.2.2, (p2 l).2.2.2, (p3 l).2.2.2, ha, i2, i3]
      module

/-- **C263** Finite speed: after `n` steps a point of a body of the linear LPS material knows only of the points that can be reached in `n + 1` jumps
within neighborhoods: whatever is different elsewhere in the beginning makes no difference to it. -/
theorem C263_reach (P : Params) (X : BC.Ctx) (cs : BC.Conditions) (hcs : BC.makeConditions [] = .ok cs) (C : Config) (K mu : ℝ)
    (S : Lps.Stored) (nbs : List (List Nat)) (ghost : (Nat → ℝ) → Nat → ℝ) (eval : Eval σ) (hN : Within nbs nbs.length)
    (hL : LinearLps C K mu S nbs ghost eval) (v1 v2 : BC.Vecs) (b1 b2 : σ) (s1 s2 : State σ)
    (h1 : initialStep P X cs eval v1 b1 = .ok s1) (h2 : initialStep P X cs eval v2 b2 = .ok s2)
    (n : Nat) (r1 r2 : State σ) (k1 : run P X cs eval s1 n = .ok r1) (k2 : run P X cs eval s2 n = .ok r2) (l : Nat) (hl : l < nbs.length)
    (h : ∀ l', Reach nbs (n + 1) l l' → at3 (v1 .u) l' = at3 (v2 .u) l' ∧ at3 (v1 .v) l' = at3 (v2 .v) l') : SameAt r1 r2 l := by
  have hforce : ∀ {b1 b2 b1' b2' : σ} {m : Nat} {w1 w2 : BC.Vecs} {f1 f2 : Nat → ℝ}, eval b1 m w1 = .ok (b1', f1) →
      eval b2 m w2 = .ok (b2', f2) → ∀ l < nbs.length, (∀ l', Share nbs l l' → at3 (w1 .u) l' = at3 (w2 .u) l') → at3 f1 l = at3 f2 l := by
    intro b1 b2 b1' b2' m w1 w2 f1 f2 e1 e2 l hl hw
    obtain ⟨t1, F1, q1, p1⟩ := hL _ _ _ _ _ e1
    obtain ⟨t2, F2, q2, p2⟩ := hL _ _ _ _ _ e2
    rw [p1 l hl, p2 l hl]
    exact force_local q1 q2 hw
  induction n generalizing r1 r2 l with
  | zero =>
    have q1 := BC.ok_inj k1
    have q2 := BC.ok_inj k2
    subst q1 q2
    obtain ⟨f1, e1, a1, u1, w1⟩ := initial_free hcs h1
    obtain ⟨f2, e2, a2, u2, w2⟩ := initial_free hcs h2
    refine ⟨by rw [u1, u2]; exact (h l .here).1, by rw [w1, w2]; exact (h l .here).2, ?_⟩
    rw [acc_at a1, acc_at a2, hforce e1 e2 l hl fun l' hs => (h l' (.jump hs .here)).1]
  | succ n ih =>
    obtain ⟨x1, g1, j1⟩ := run_succ k1
    obtain ⟨x2, g2, j2⟩ := run_succ k2
    obtain ⟨w1, f1, e1, p1⟩ := advance_at hcs j1
    obtain ⟨w2, f2, e2, p2⟩ := advance_at hcs j2
    have hmono : ∀ {n l l'}, Reach nbs n l l' → Reach nbs (n + 1) l l' := by
      intro n l l' hr
      induction hr with
      | here => exact .here
      | jump hs _ ih => exact .jump hs ih
    have hat : SameAt x1 x2 l := ih x1 x2 g1 g2 l hl fun l' hr => h l' (hmono hr)
    have hw : ∀ l', Share nbs l l' → at3 (w1 .u) l' = at3 (w2 .u) l' := by
      intro l' hs
      obtain ⟨i1, i2, i3⟩ := ih x1 x2 g1 g2 l' (share_within hN hs) fun l'' hr => h l'' (.jump hs hr)
      rw [(p1 l').1, (p2 l').1, i1, i2, i3]
    obtain ⟨i1, i2, i3⟩ := hat
    have ha : at3 r1.a l = at3 r2.a l := by rw [(p1 l).2.2.1, (p2 l).2.2.1, hforce e1 e2 l hl hw]
    refine ⟨?_, ?_, ha⟩
    · rw [(p1 l).2.1, (p2 l).2.1, (p1 l).1, (p2 l).1, i1, i2, i3]
    · rw [(p1 l).2.2.2, (p2 l).2.2.2, ha, i2, i3]

theorem reach_within {nbs : List (List Nat)} (hN : Within nbs nbs.length) {n l l' : Nat} (h : Reach nbs n l l') (hl : l < nbs.length) :
    l' < nbs.length := by
  induction h with
  | here => exact hl
  | jump hs _ ih => exact ih (share_within hN hs)

theorem reach_distance {C : Config} {nbs : List (List Nat)} {d : ℝ} (hd : ∀ i ns j, nbs[i]? = some ns → j ∈ ns → len (C.x j - C.x i) ≤ d)
    (h0 : 0 ≤ d) {n l l' : Nat} (h : Reach nbs n l l') : len (C.x l' - C.x l) ≤ 2 * n * d := by
  have hneg : ∀ a : V3, len (-a) = len a := fun a => by simp [len]
  have hzero : len (0 : V3) = 0 := by simp [len]
  have hmid : ∀ i ns j, nbs[i]? = some ns → j ∈ i :: ns → len (C.x j - C.x i) ≤ d := by
    intro i ns j h1 h2
    rcases List.mem_cons.1 h2 with rfl | h2
    · rw [sub_self, hzero]
      exact h0
    · exact hd i ns j h1 h2
  induction h with
  | here =>
    rw [sub_self, hzero]
    positivity
  | @jump n l m l' hs _ ih =>
    obtain ⟨i, ns, q1, q2, q3⟩ := hs
    have e : C.x l' - C.x l = (C.x l' - C.x m) + ((C.x m - C.x i) + -(C.x l - C.x i)) := by abel
    rw [e]
    have t1 := Outputs.len_add_le (C.x l' - C.x m) ((C.x m - C.x i) + -(C.x l - C.x i))
    have t2 := Outputs.len_add_le (C.x m - C.x i) (-(C.x l - C.x i))
    rw [hneg] at t2
    have t3 := hmid i ns m q1 q3
    have t4 := hmid i ns l q1 q2
    push_cast
    nlinarith

/-- **C263** In terms of distances: if all bonds are at most `d` long, what is farther than `2 (n + 1) d` from a point makes no difference to it within
`n` steps. -/
theorem C263_speed (P : Params) (X : BC.Ctx) (cs : BC.Conditions) (hcs : BC.makeConditions [] = .ok cs) (C : Config) (K mu : ℝ)
    (S : Lps.Stored) (nbs : List (List Nat)) (ghost : (Nat → ℝ) → Nat → ℝ) (eval : Eval σ) (hN : Within nbs nbs.length)
    (hL : LinearLps C K mu S nbs ghost eval) (d : ℝ) (h0 : 0 ≤ d) (hd : ∀ i ns j, nbs[i]? = some ns → j ∈ ns → len (C.x j - C.x i) ≤ d)
    (v1 v2 : BC.Vecs) (b1 b2 : σ) (s1 s2 : State σ)
    (h1 : initialStep P X cs eval v1 b1 = .ok s1) (h2 : initialStep P X cs eval v2 b2 = .ok s2)
    (n : Nat) (r1 r2 : State σ) (k1 : run P X cs eval s1 n = .ok r1) (k2 : run P X cs eval s2 n = .ok r2) (l : Nat) (hl : l < nbs.length)
    (h : ∀ l' < nbs.length, len (C.x l' - C.x l) ≤ 2 * (n + 1) * d → at3 (v1 .u) l' = at3 (v2 .u) l' ∧ at3 (v1 .v) l' = at3 (v2 .v) l') :
    SameAt r1 r2 l := by
  refine C263_reach P X cs hcs C K mu S nbs ghost eval hN hL v1 v2 b1 b2 s1 s2 h1 h2 n r1 r2 k1 k2 l hl fun l' hr => h l' (reach_within hN hr hl) ?_
  have := reach_distance hd h0 hr
  push_cast at this
  exact this

/-! ## A chain of six points -/

/-- Points at distance one from the next. -/
def chain : Config where
  x := fun k => ![(k : ℝ), 0, 0]
  y := fun k => ![(k : ℝ), 0, 0]
  v := fun _ => 1
  m := fun _ => 1
  damage := fun _ => 0
  omega := fun _ _ => 1
  horizon := 1
  thermal := none

@[inherit_doc chain]
def chainNbs : List (List Nat) := [[1], [0, 2], [1, 3], [2, 4], [3, 5], [4]]

/-- The linear material of the chain. -/
def chainEval : Eval Unit := fun _ _ w =>
  match Lps.evaluate (Lps.displaced chain (at3 (w .u))) .cells 1 1 ⟨fun _ => 1, fun _ => 1⟩ chainNbs.length (encode chainNbs) (fun t => t) with
  | .ok (_, F) => .ok ((), fun i => F (i / 3) ⟨i % 3, by omega⟩)
  | .fail e => .fail e
  | .ub => .ub

theorem chain_lps : LinearLps chain 1 1 ⟨fun _ => 1, fun _ => 1⟩ chainNbs (fun t => t) chainEval := by
  intro b n w b' f h
  unfold chainEval at h
  split at h
  · next th F hF =>
    refine ⟨th, F, hF, fun l _ => ?_⟩
    have e := (Prod.ext_iff.1 (Outcome.ok.inj h)).2
    simp only at e
    rw [← e]
    funext k
    have e1 : (l * 3 + (k : Nat)) / 3 = l := by have := k.isLt; omega
    have e2 : (⟨(l * 3 + (k : Nat)) % 3, by omega⟩ : Fin 3) = k := by
      apply Fin.ext; have := k.isLt; show (l * 3 + (k : Nat)) % 3 = k; omega
    simp only [at3, e1, e2]
  · cases h
  · cases h

theorem chain_bond {i : Nat} {ns : List Nat} {j : Nat} (h : chainNbs[i]? = some ns) (hj : j ∈ ns) : j = i + 1 ∨ i = j + 1 := by
  match i with
  | 0 | 1 | 2 | 3 | 4 | 5 =>
    simp [chainNbs] at h
    subst h
    simp at hj
    omega
  | i + 6 => simp [chainNbs] at h

theorem chain_defined (b : Unit) (n : Nat) (w : BC.Vecs) : ∃ b' f, chainEval b n w = .ok (b', f) := by
  have hr : Lps.Ready (Lps.displaced chain (at3 (w .u))) ⟨fun _ => 1, fun _ => 1⟩ chainNbs := by
    rintro p j ⟨ns, h1, h2⟩
    refine ⟨one_ne_zero, fun e => ?_⟩
    have e0 : (j : ℝ) = (p : ℝ) := congrFun e 0
    have := Nat.cast_injective e0
    rcases chain_bond h1 h2 with h | h <;> omega
  obtain ⟨th, F, h⟩ := Lps.C135_defined 1 1 hr (fun t => t)
  unfold chainEval
  rw [h]
  exact ⟨_, _, rfl⟩

/-- Unit density, steps of one tenth. -/
def chainParams : Params := { dt := 1 / 10, timeInitial := 0, timeFinal := 1, density := fun _ => 1, length := 18 }

theorem chain_runs (vecs : BC.Vecs) (n : Nat) : ∃ s0 s, initialStep chainParams barCtx {} chainEval vecs () = .ok s0 ∧
    run chainParams barCtx {} chainEval s0 n = .ok s := by
  obtain ⟨⟨s0, h1⟩, h2⟩ := explicit_defined chainParams barCtx {} chainEval (by intro c hc; simp at hc) (by intro c hc; simp at hc)
    (fun _ _ => by simp [chainParams]) chain_defined vecs ()
  obtain ⟨s, hs⟩ := h2 s0 n
  exact ⟨s0, s, h1, hs⟩

/-- What happens at the far end of the chain makes no difference to the first point within one step. -/
example (z : ℝ) : ∃ s1 s2 r1 r2, initialStep chainParams barCtx {} chainEval (fun t i => if t = .u ∧ i = 3 then 1 else 0) () = .ok s1 ∧
    initialStep chainParams barCtx {} chainEval (fun t i => if t = .u ∧ i = 3 then 1 else if t = .u ∧ i = 15 then z else 0) () = .ok s2 ∧
    run chainParams barCtx {} chainEval s1 1 = .ok r1 ∧ run chainParams barCtx {} chainEval s2 1 = .ok r2 ∧ SameAt r1 r2 0 := by
  obtain ⟨s1, r1, h1, k1⟩ := chain_runs (fun t i => if t = .u ∧ i = 3 then 1 else 0) 1
  obtain ⟨s2, r2, h2, k2⟩ := chain_runs (fun t i => if t = .u ∧ i = 3 then 1 else if t = .u ∧ i = 15 then z else 0) 1
  have hN : Within chainNbs chainNbs.length := ⟨le_refl _, by decide⟩
  refine ⟨s1, s2, r1, r2, h1, h2, k1, k2, C263_speed chainParams barCtx {} rfl chain 1 1 _ chainNbs _ chainEval hN chain_lps 1 zero_le_one ?_ _ _ () ()
    s1 s2 h1 h2 1 r1 r2 k1 k2 0 (by decide) ?_⟩
  · intro i ns j h hj
    rcases chain_bond h hj with rfl | rfl <;> simp [chain, len]
  · intro l hl hd
    have hl5 : l ≠ 5 := by
      rintro rfl
      have e : len (chain.x 5 - chain.x 0) = 5 := by
        simp only [chain, len]
        simp
      rw [e] at hd
      norm_num at hd
    refine ⟨?_, ?_⟩
    · funext k
      have hk := k.isLt
      have h15 : ¬ l * 3 + (k : Nat) = 15 := by omega
      simp [at3, h15]
    · funext k
      simp [at3]

/-- The chain meets the hypotheses of C262. -/
example : ∃ s1 s2 s3 r1 r2 r3, LinearLps chain 1 1 ⟨fun _ => 1, fun _ => 1⟩ chainNbs (fun t => t) chainEval ∧ Within chainNbs chainNbs.length ∧
    initialStep chainParams barCtx {} chainEval (fun t i => if t = .u ∧ i = 3 then 1 else 0) () = .ok s1 ∧
    initialStep chainParams barCtx {} chainEval (fun t i => if t = .v ∧ i = 6 then 1 else 0) () = .ok s2 ∧
    initialStep chainParams barCtx {} chainEval (fun t i => if t = .u ∧ i = 3 then 2 else if t = .v ∧ i = 6 then 3 else 0) () = .ok s3 ∧
    run chainParams barCtx {} chainEval s1 7 = .ok r1 ∧ run chainParams barCtx {} chainEval s2 7 = .ok r2 ∧
    run chainParams barCtx {} chainEval s3 7 = .ok r3 ∧ at3 (r3.vecs .u) 4 = (2 : ℝ) • at3 (r1.vecs .u) 4 + (3 : ℝ) • at3 (r2.vecs .u) 4 := by
  obtain ⟨s1, r1, h1, k1⟩ := chain_runs (fun t i => if t = .u ∧ i = 3 then 1 else 0) 7
  obtain ⟨s2, r2, h2, k2⟩ := chain_runs (fun t i => if t = .v ∧ i = 6 then 1 else 0) 7
  obtain ⟨s3, r3, h3, k3⟩ := chain_runs (fun t i => if t = .u ∧ i = 3 then 2 else if t = .v ∧ i = 6 then 3 else 0) 7
  have hN : Within chainNbs chainNbs.length := ⟨le_refl _, by decide⟩
  refine ⟨s1, s2, s3, r1, r2, r3, chain_lps, hN, h1, h2, h3, k1, k2, k3, (C262_superposition chainParams barCtx {} rfl chain 1 1 _ chainNbs hN _ chainEval
    chain_lps 2 3 _ _ _ ?_ ?_ () () () s1 s2 s3 h1 h2 h3 7 r1 r2 r3 k1 k2 k3 4 (by decide)).1⟩
  · intro l _
    funext k
    simp [at3]
  · intro l _
    funext k
    simp [at3]

end Verif.Conserve
