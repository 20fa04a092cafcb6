import Verif.Body.Lemmas
import Verif.Explicit.Props

/-!
# Property C66, and C38 for a body of several blocks on several processors
-/

noncomputable section

namespace Verif.Body

open Verif Verif.Mech Verif.Neigh Verif.Assembly

/-- C66: however the body is divided into blocks and distributed over processors, and whichever of
the modelled materials each block has, the assembled internal force has no resultant. -/
theorem C66_force (V : Nat → ℝ) (Y : Nat → V3) (global : Assembly.Dist V3) (blocks : List BodyBlock)
    (hd : Decomposition global blocks) (hp : ∀ b ∈ blocks, ∀ p ∈ b.pieces, p.Valid V Y) :
    resultant V (internalForce global blocks) = 0 := by
  have h := total_internal (fun g => (DistribSMul.toAddMonoidHom V3 (V g))) global blocks hd
  refine Eq.trans h ?_
  refine List.sum_eq_zero fun x hx => ?_
  obtain ⟨b, hb, rfl⟩ := List.mem_map.mp hx
  refine List.sum_eq_zero fun x hx => ?_
  obtain ⟨p, hpb, rfl⟩ := List.mem_map.mp hx
  have hv := hp b hb p hpb
  unfold Piece.part
  refine Eq.trans (sum_zipIdx (fun g f => V g • f) _ _) ?_
  rw [← (kernel_force hv.within hv.kernel).1]
  unfold totalForce
  refine Finset.sum_congr rfl fun k hk => ?_
  have hk := Finset.mem_range.mp hk
  rw [hv.volume k p.gids[k] (List.getElem?_eq_getElem hk), getD_of_lt _ hk]

/-- C66: and no resultant moment. -/
theorem C66_moment (V : Nat → ℝ) (Y : Nat → V3) (global : Assembly.Dist V3) (blocks : List BodyBlock)
    (hd : Decomposition global blocks) (hp : ∀ b ∈ blocks, ∀ p ∈ b.pieces, p.Valid V Y) :
    resultantMoment V Y (internalForce global blocks) = 0 := by
  have h := total_internal (fun g => (DistribSMul.toAddMonoidHom V3 (V g)).comp
    (crossProduct (Y g)).toAddMonoidHom) global blocks hd
  refine Eq.trans h ?_
  refine List.sum_eq_zero fun x hx => ?_
  obtain ⟨b, hb, rfl⟩ := List.mem_map.mp hx
  refine List.sum_eq_zero fun x hx => ?_
  obtain ⟨p, hpb, rfl⟩ := List.mem_map.mp hx
  have hv := hp b hb p hpb
  unfold Piece.part
  refine Eq.trans (sum_zipIdx (fun g f => V g • crossProduct (Y g) f) _ _) ?_
  rw [← (kernel_force hv.within hv.kernel).2]
  unfold totalMoment
  refine Finset.sum_congr rfl fun k hk => ?_
  have hk := Finset.mem_range.mp hk
  rw [hv.volume k p.gids[k] (List.getElem?_eq_getElem hk),
    hv.position k p.gids[k] (List.getElem?_eq_getElem hk), getD_of_lt _ hk]

/-! ### A body on two processors -/

/-- A block on a processor with the points `gids` of the body of `Mech.demo`. -/
def demoConfig (gids : List Nat) : Config where
  x := fun k => demo.x (gids.getD k 0)
  y := fun k => demo.y (gids.getD k 0)
  v := fun k => demo.v (gids.getD k 0)
  m := fun _ => 5
  damage := fun _ => 0
  omega := fun _ _ => 1
  horizon := 2
  thermal := none

theorem demoConfig_proper (gids : List Nat) (nbs : List (List Nat))
    (h : ∀ p j, HasBond nbs p j → gids.getD j 0 ≠ gids.getD p 0) : Proper (demoConfig gids) nbs := by
  intro p j hb
  have hne : ((gids.getD j 0 : ℕ) : ℝ) ≠ (gids.getD p 0 : ℕ) := by exact_mod_cast h p j hb
  refine ⟨by norm_num [demoConfig], ?_, ?_⟩ <;> intro he
  · have := congrFun he 0
    simp only [demoConfig, demo, Matrix.cons_val_zero] at this
    exact hne (by linarith)
  · have := congrFun he 0
    simp only [demoConfig, demo, Matrix.cons_val_zero] at this
    exact hne this

/-- Points 0, 1, 2 in a row, point 0 on the first processor, points 1 and 2 on the second; all
hypotheses of C66 are met by the forces of the elastic material. -/
theorem demo_body : ∃ F0 F1 : Nat → V3, ∃ global blocks,
    global = [[(0, (0 : V3))], [(1, 0), (2, 0)]] ∧
    blocks = [(⟨[⟨[0, 1], demoConfig [0, 1], [[1]], F0⟩,
      ⟨[1, 2, 0], demoConfig [1, 2, 0], [[2, 1], [0]], F1⟩], fun _ g => if g = 0 then 0 else 1⟩ : BodyBlock)] ∧
    Decomposition global blocks ∧ ∀ b ∈ blocks, ∀ p ∈ b.pieces, p.Valid demo.v demo.y := by
  have p0 : Proper (demoConfig [0, 1]) [[1]] := by
    apply demoConfig_proper
    rintro p j ⟨ns, hp, hj⟩
    match p, hp with
    | 0, hp => cases hp; simp at hj; subst hj; decide
    | n + 1, hp => simp at hp
  have p1 : Proper (demoConfig [1, 2, 0]) [[2, 1], [0]] := by
    apply demoConfig_proper
    rintro p j ⟨ns, hp, hj⟩
    match p, hp with
    | 0, hp => cases hp; simp at hj; rcases hj with rfl | rfl <;> decide
    | 1, hp => cases hp; simp at hj; subst hj; decide
    | n + 2, hp => simp at hp
  have within0 : Within [[1]] [0, 1].length := ⟨by decide, by decide⟩
  have within1 : Within [[2, 1], [0]] [1, 2, 0].length := ⟨by decide, by decide⟩
  obtain ⟨t0, F0, h0⟩ := elastic_defined p0 1 1 0
  obtain ⟨t1, F1, h1⟩ := elastic_defined p1 1 1 0
  refine ⟨F0, F1, _, _, rfl, rfl, ⟨by decide, ?_, ?_⟩, ?_⟩
  · intro b hb q g p ⟨part, hp, hg⟩
    simp only [List.mem_cons, List.not_mem_nil, or_false] at hb
    subst hb
    match p, hp with
    | 0, hp => cases hp; simp at hg; subst hg; rfl
    | 1, hp => cases hp; simp at hg; rcases hg with rfl | rfl <;> rfl
    | n + 2, hp => simp at hp
  · intro b hb p hp g hg
    simp only [List.mem_cons, List.not_mem_nil, or_false] at hb
    subst hb
    have : g = 0 ∨ g = 1 ∨ g = 2 := by
      simp only [List.mem_cons, List.not_mem_nil, or_false] at hp
      rcases hp with rfl | rfl <;> simp at hg <;> omega
    rcases this with rfl | rfl | rfl
    · exact ⟨0, _, rfl, by simp⟩
    · exact ⟨1, _, rfl, by simp⟩
    · exact ⟨1, _, rfl, by simp⟩
  · intro b hb p hp
    simp only [List.mem_cons, List.not_mem_nil, or_false] at hb
    subst hb
    simp only [List.mem_cons, List.not_mem_nil, or_false] at hp
    rcases hp with rfl | rfl
    · refine ⟨within0, ?_, ?_, .elastic 1 1 0 t0 F0 h0⟩ <;> intro k g hk <;>
        simp [demoConfig, hk]
    · refine ⟨within1, ?_, ?_, .elastic 1 1 0 t1 F1 h1⟩ <;> intro k g hk <;>
        simp [demoConfig, hk]

example : ∃ global blocks, Decomposition global blocks ∧
    (∀ b ∈ blocks, ∀ p ∈ b.pieces, p.Valid demo.v demo.y) ∧
    (blocks.map fun b => b.pieces.length) = [2] := by
  obtain ⟨F0, F1, global, blocks, hg, hb, h1, h2⟩ := demo_body
  exact ⟨global, blocks, h1, h2, by rw [hb]; rfl⟩

/-! ### C38 for such bodies -/

open Verif.Explicit in
/-- C38: explicit dynamics of a body divided into blocks and distributed over processors in any way,
each block with any of the modelled materials, damage and other internal variables evolving in any
way (the configurations of the pieces are free, only the volumes are fixed): without external forces and boundary conditions the linear momentum after any
number of steps is that of the initial velocities. The force vector is the assembled internal force,
in the order in which the processors own the points `ids`. -/
theorem C38_body {σ : Type} (P : Params) (C : BC.Ctx) (cs : BC.Conditions)
    (hcs : BC.makeConditions [] = .ok cs) (V : Nat → ℝ) (ids : List Nat)
    (hlen : P.length = 3 * ids.length) (eval : Eval σ)
    (heval : ∀ b n w b' f, eval b n w = .ok (b', f) → ∃ (Y : Nat → V3) (global : Assembly.Dist V3)
      (blocks : List BodyBlock), Decomposition global blocks ∧
      (∀ b ∈ blocks, ∀ p ∈ b.pieces, p.Valid V Y) ∧
      (global.flatMap fun part => part.map Prod.fst) = ids ∧
      ∀ l e, (internalForce global blocks).flatten[l]? = some e →
        ∀ k : Fin 3, f (l * 3 + k) = e.2 k)
    (vecs : BC.Vecs) (b : σ) (s0 : State σ) (hi : initialStep P C cs eval vecs b = .ok s0) (k : Nat)
    (hk : k < 3) (n : Nat) (s : State σ) (h : run P C cs eval s0 n = .ok s) :
    momentum P (fun l => V (ids.getD l 0)) ids.length k (s.vecs .v) =
      momentum P (fun l => V (ids.getD l 0)) ids.length k (vecs .v) := by
  refine C38_momentum P C cs hcs eval _ ids.length hlen ?_ vecs b s0 hi k hk n s h
  intro b n w b' f he k hk
  obtain ⟨Y, global, blocks, hd, hv, hids, hf⟩ := heval b n w b' f he
  have h0 := congrFun (C66_force V Y global blocks hd hv) ⟨k, hk⟩
  rw [resultant_flatten] at h0
  have hfl : ((internalForce global blocks).flatten.map Prod.fst) = ids := by
    rw [internalForce_entries global blocks hd, ← hids, ← List.flatMap_def, List.map_flatMap]
    congr 1
    funext part
    rw [List.map_map]
    rfl
  rw [← hfl, List.length_map]
  refine Eq.trans ?_ h0
  rw [sum_list_range]
  refine Finset.sum_congr rfl fun l hl => ?_
  have hl := Finset.mem_range.mp hl
  have e := hf l _ (List.getElem?_eq_getElem hl) ⟨k, hk⟩
  beta_reduce
  rw [e, getD_of_lt _ (by rw [List.length_map]; exact hl), List.getElem_map,
    getD_of_lt' _ hl]
  rfl

open Verif.Explicit in
/-- The body of `demo_body` with the forces of its deformed state meets the hypotheses of C38. -/
example : ∃ f : Nat → ℝ, ∃ (Y : Nat → V3) (global : Assembly.Dist V3) (blocks : List BodyBlock),
    Decomposition global blocks ∧ (∀ b ∈ blocks, ∀ p ∈ b.pieces, p.Valid demo.v Y) ∧
    (global.flatMap fun part => part.map Prod.fst) = [0, 1, 2] ∧
    ∀ l e, (internalForce global blocks).flatten[l]? = some e →
      ∀ k : Fin 3, f (l * 3 + k) = e.2 k := by
  obtain ⟨F0, F1, global, blocks, hg, hb, h1, h2⟩ := demo_body
  refine ⟨fun i => ((internalForce global blocks).flatten.getD (i / 3) (0, 0)).2 ⟨i % 3, by omega⟩,
    demo.y, global, blocks, h1, h2, by rw [hg]; rfl, ?_⟩
  intro l e he k
  have e1 : (l * 3 + (k : Nat)) / 3 = l := by have := k.isLt; omega
  have e2 : (⟨(l * 3 + (k : Nat)) % 3, by omega⟩ : Fin 3) = k := by
    apply Fin.ext; have := k.isLt; show (l * 3 + (k : Nat)) % 3 = k; omega
  simp only [e1, e2]
  rw [List.getD_eq_getElem?_getD, he]
  rfl

end Verif.Body
