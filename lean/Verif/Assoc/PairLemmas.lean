import Verif.Assoc.BalanceLemmas
import Verif.Assoc.ExactLemmas
import Verif.Correspondence.Defined
import Verif.Mech.Plastic

/-!
# Bond-associated correspondence material: both copies of a bond
-/

noncomputable section

namespace Verif.Assoc

open Verif Verif.Neigh Verif.Mech Verif.Tensor Matrix
open Verif.Correspondence (bondsAt addOuter identity mem_bondsAt foldl_addOuter toMatrix_identity)
open scoped Classical

/-- Two bonds between the same points, in opposite directions. -/
def Partners (nbs : List (List Nat)) (b b' : Bond) : Prop :=
  b ∈ bondsOf nbs ∧ b' ∈ bondsOf nbs ∧ b'.i = b.j ∧ b'.j = b.i

theorem Paired.bonds {α : Type} {nbs : List (List Nat)} {f : Nat → α} (h : Paired nbs f) {b b' : Bond}
    (hb : Partners nbs b b') : f b'.b = f b.b := by
  obtain ⟨h1, h2, h3, h4⟩ := hb
  obtain ⟨t, ⟨ns, a1, a2⟩, a3⟩ := bondsOf_pos h1
  obtain ⟨t', ⟨ms, c1, c2⟩, c3⟩ := bondsOf_pos h2
  rw [h3] at c1 c3
  rw [h4] at c2
  rw [a3, c3]
  exact (h b.i b.j ns ms t t' a1 a2 c1 c2).symm

theorem bond_at {nbs : List (List Nat)} {p t j : Nat} {ns : List Nat} (hp : nbs[p]? = some ns) (ht : ns[t]? = some j) :
    (⟨p, j, bondPos nbs p t⟩ : Bond) ∈ bondsAt (bondsOf nbs) p := by
  unfold bondsAt
  rw [filter_bondsOf nbs hp]
  exact List.mem_map.2 ⟨(j, t), List.mk_mem_zipIdx_iff_getElem?.2 (by simpa using ht), rfl⟩

theorem bond_mem {nbs : List (List Nat)} {p t j : Nat} {ns : List Nat} (hp : nbs[p]? = some ns) (ht : ns[t]? = some j) :
    (⟨p, j, bondPos nbs p t⟩ : Bond) ∈ bondsOf nbs := (List.mem_filter.mp (bond_at hp ht)).1

theorem paired_of_bonds {α : Type} {nbs : List (List Nat)} {f : Nat → α}
    (h : ∀ b b', Partners nbs b b' → f b'.b = f b.b) : Paired nbs f := by
  intro p q ns ms t t' h1 h2 h3 h4
  exact (h ⟨p, q, bondPos nbs p t⟩ ⟨q, p, bondPos nbs q t'⟩ ⟨bond_mem h1 h2, bond_mem h3 h4, rfl, rfl⟩).symm

/-- Both copies of each bond have the same state. -/
structure PairedState (nbs : List (List Nat)) (s : State) : Prop where
  jacobian : Paired nbs s.jacobian
  inv : Paired nbs s.inv
  stretch : Paired nbs s.stretch
  rotation : Paired nbs s.rotation
  stress : Paired nbs s.stress

theorem mean_comm (a b : M9) : mean a b = mean b a := by
  unfold mean
  simp only [add_comm]

theorem corrected_neg (m : M9) (d z : V3) : corrected m (-d) (-z) = corrected m d z := by
  apply toMatrix_injective
  rw [toMatrix_corrected, toMatrix_corrected, lenSq_neg, mulVec_neg, sub_neg_eq_add, neg_add_eq_sub, ← neg_sub z, neg_outer]

theorem bondGradient_swap (B : Body) (g : Nat → M9) (z : Nat → V3) {b b' : Bond} (h1 : b'.i = b.j) (h2 : b'.j = b.i) :
    bondGradient B g z b' = bondGradient B g z b := by
  unfold bondGradient
  rw [xi_swap h1 h2, h1, h2, mean_comm, ← neg_sub (z b.j) (z b.i), corrected_neg]

theorem influence_swap {B : Body} {nbs : List (List Nat)} (hB : ∀ p q, HasBond nbs p q → B.horizon p = B.horizon q)
    {d : Nat → ℝ} (hd : Paired nbs d) {b b' : Bond} (h : Partners nbs b b') : influenceOf B d b' = influenceOf B d b := by
  unfold influenceOf
  rw [hd.bonds h, xi_swap h.2.2.1 h.2.2.2, h.2.2.1, ← hB _ _ (mem_bondsOf h.1)]
  congr 2
  unfold len
  simp

theorem bond_lt {nbs : List (List Nat)} {b : Bond} (h : b ∈ bondsOf nbs) : b.b < (nbs.map List.length).sum := by
  have : b.b ∈ (bondsOf nbs).map (·.b) := List.mem_map.2 ⟨b, h, rfl⟩
  rw [bondsFrom_pos] at this
  simpa using List.mem_range'_1.mp this

theorem paired_step {B : Body} {D : Decompose} {order : Nat} {U : Update} {nbs : List (List Nat)} (hU : Local nbs U) {dt : ℝ} {H : Harm}
    {u y v : Nat → V3} {g : Ghosts} {s : State} {r : Result} {d : Nat → ℝ}
    (hB : ∀ p q, HasBond nbs p q → B.horizon p = B.horizon q) (hr : Reported nbs d H)
    (hs : Sound B D order d nbs s.weights) (hH : Paired nbs H.bondDamage) (hps : PairedState nbs s)
    (h : evaluation B D order U dt H u y v g s nbs.length (encode nbs) = .ok r) :
    Paired nbs r.pre.weights.omega ∧ Paired nbs r.piola ∧ PairedState nbs (r.next s) := by
  have hp := (force_parts (evaluation_parts h).2).2
  have hsound := sound_step hr hs h
  obtain ⟨hk, -⟩ := kin_fold (bondsOf_nodup nbs) hp.kin
  have homega : ∀ b b', Partners nbs b b' → r.pre.weights.omega b'.b = r.pre.weights.omega b.b := by
    intro b b' hbb
    have hat : ∀ c ∈ bondsOf nbs, r.pre.weights.omega c.b = influenceOf B H.bondDamage c := by
      intro c hc
      have hlt : c.i < nbs.length := by
        obtain ⟨ns, h1, _⟩ := mem_bondsOf hc
        exact (List.getElem?_eq_some_iff.1 h1).1
      exact ((hsound c.i hlt).2 c (List.mem_filter.mpr ⟨hc, by simp⟩)).1
    rw [hat b' hbb.2.1, hat b hbb.1, influence_swap hB hH hbb]
  have hkin : ∀ b b', Partners nbs b b' → r.kin.jacobian b'.b = r.kin.jacobian b.b ∧ r.kin.inv b'.b = r.kin.inv b.b ∧
      r.kin.stretch b'.b = r.kin.stretch b.b ∧ r.kin.rotation b'.b = r.kin.rotation b.b ∧
      r.kin.rate b'.b = r.kin.rate b.b := by
    intro b b' hbb
    obtain ⟨k1, k2⟩ := hk b hbb.1
    obtain ⟨k1', k2'⟩ := hk b' hbb.2.1
    by_cases ho : 0 < r.pre.weights.omega b.b
    · have ho' : 0 < r.pre.weights.omega b'.b := by rw [homega b b' hbb]; exact ho
      obtain ⟨-, -, a1, a2, a3, a4, a5⟩ := k1.active ho
      obtain ⟨-, -, c1, c2, c3, c4, c5⟩ := k1'.active ho'
      rw [bondGradient_swap B _ _ hbb.2.2.1 hbb.2.2.2, hps.stretch.bonds hbb] at c3
      rw [bondGradient_swap B _ _ hbb.2.2.1 hbb.2.2.2, hps.stretch.bonds hbb, hps.rotation.bonds hbb] at c4
      have e4 : r.kin.rotation b'.b = r.kin.rotation b.b := by
        rw [c4, a4, bondGradient_swap B _ _ hbb.2.2.1 hbb.2.2.2]
      refine ⟨?_, ?_, ?_, e4, ?_⟩
      · rw [c1, a1, bondGradient_swap B _ _ hbb.2.2.1 hbb.2.2.2]
      · rw [c2, a2, bondGradient_swap B _ _ hbb.2.2.1 hbb.2.2.2]
      · rw [c3, a3, bondGradient_swap B _ _ hbb.2.2.1 hbb.2.2.2]
      · rw [c5, a5, e4, bondGradient_swap B _ _ hbb.2.2.1 hbb.2.2.2, bondGradient_swap B _ _ hbb.2.2.1 hbb.2.2.2]
    · have ho' : ¬ 0 < r.pre.weights.omega b'.b := by rw [homega b b' hbb]; exact ho
      obtain ⟨a3, a4, a5⟩ := k1.idle ho
      obtain ⟨c3, c4, c5⟩ := k1'.idle ho'
      obtain ⟨a1, a2⟩ := k2 ho
      obtain ⟨c1, c2⟩ := k2' ho'
      rw [a1, a2, a3, a4, a5, c1, c2, c3, c4, c5]
      exact ⟨hps.jacobian.bonds hbb, hps.inv.bonds hbb, hps.stretch.bonds hbb, hps.rotation.bonds hbb, rfl⟩
  have hstress : ∀ b b', Partners nbs b b' → r.stress b'.b = r.stress b.b := fun b b' hbb =>
    hU _ _ _ _ hp.stress _ (bond_lt hbb.2.1) _ (bond_lt hbb.1) (hkin b b' hbb).2.2.2.2 (hps.stress.bonds hbb)
  refine ⟨paired_of_bonds homega, paired_of_bonds fun b b' hbb => ?_, ⟨paired_of_bonds fun b b' hbb => (hkin b b' hbb).1,
    paired_of_bonds fun b b' hbb => (hkin b b' hbb).2.1, paired_of_bonds fun b b' hbb => (hkin b b' hbb).2.2.1,
    paired_of_bonds fun b b' hbb => (hkin b b' hbb).2.2.2.1, paired_of_bonds hstress⟩⟩
  obtain ⟨e1, e2, -, e4, -⟩ := hkin b b' hbb
  rw [hp.piola, hp.piola, hp.cauchy, hp.cauchy, e1, e2, e4, hstress b b' hbb]

theorem paired_start {B : Body} {D : Decompose} {order : Nat} {ghost : Nat → ℝ} {nbs : List (List Nat)} {s : State}
    (h : initialState B D order ghost nbs.length (encode nbs) = .ok s) : PairedState nbs s := by
  unfold initialState at h
  rw [visited_encode, Outcome.ok_bind] at h
  obtain ⟨w, h1, h2⟩ := Outcome.bind_eq_ok.mp h
  split at h2
  · cases h2
  · cases h2
    constructor <;> exact paired_of_bonds fun _ _ _ => rfl

theorem paired_run {B : Body} {D : Decompose} {order : Nat} {U : Update} {nbs : List (List Nat)} (hU : Local nbs U) {ghost : Nat → ℝ}
    (hB : ∀ p q, HasBond nbs p q → B.horizon p = B.horizon q) {d : Nat → ℝ} {s : State}
    (h : Run B D order U ghost nbs (Tame nbs) d s) : Sound B D order d nbs s.weights ∧ PairedState nbs s := by
  induction h with
  | start h => exact ⟨sound_start h, paired_start h⟩
  | step _ hr h ih =>
    exact ⟨sound_step hr.reported ih.1 h, (paired_step hU hB hr.reported ih.1 hr.paired ih.2 h).2.2⟩
  | again _ hr h ih =>
    obtain ⟨-, -, hq⟩ := paired_step hU hB hr.reported ih.1 hr.paired ih.2 h
    exact ⟨sound_step hr.reported ih.1 h, hq.jacobian, hq.inv, ih.2.stretch, ih.2.rotation, ih.2.stress⟩

/-! ### Gradients as matrices -/

theorem bondGradient_bondOf (B : Body) (g : Nat → M9) (z : Nat → V3) (b : Bond) :
    (bondGradient B g z b).toMatrix = bondOf B (fun p => (g p).toMatrix) z b := by
  rw [bondGradient, toMatrix_corrected, toMatrix_mean]
  rfl

theorem bondOf_congr (B : Body) {G G' : Nat → Matrix (Fin 3) (Fin 3) ℝ} (z : Nat → V3) {b : Bond}
    (h1 : G b.i = G' b.i) (h2 : G b.j = G' b.j) : bondOf B G z b = bondOf B G' z b := by
  unfold bondOf
  rw [h1, h2]

theorem gradientAt_gradOf (B : Body) (phi : Nat → V3) (start : M9) (z : Nat → V3) (bonds : List Bond) (p : Nat) :
    (gradientAt B phi start z (bondsAt bonds p)).toMatrix = start.toMatrix + gradOf B phi z bonds p := by
  unfold gradientAt
  rw [foldl_addOuter]
  rfl

theorem gradOf_add (B : Body) (phi : Nat → V3) (z z' : Nat → V3) (bonds : List Bond) (p : Nat) :
    gradOf B phi (z + z') bonds p = gradOf B phi z bonds p + gradOf B phi z' bonds p := by
  unfold gradOf
  rw [← List.sum_map_add]
  congr 1
  refine List.map_congr_left fun b _ => ?_
  rw [← smul_add]
  congr 1
  ext i j
  simp [vecMulVec_apply]
  ring

/-- Where the weights are exact the coordinates have gradient one. -/
theorem gradOf_coordinates {B : Body} {D : Decompose} (hD : D.Correct) {order : Nat} (ho : order ≠ 0) {d : Nat → ℝ}
    {nbs : List (List Nat)} {w : Weights} {p : Nat} (hp : p < nbs.length) (hc : Current B D order d (bondsOf nbs) w p)
    (hh : 0 < B.horizon p) (hw : WellPlaced B order d nbs p) : gradOf B w.phi B.x (bondsOf nbs) p = 1 := by
  have h := gradient_exact hD ho hp hc hh hw (Z := fun c => MvPolynomial.X c) (z := B.x)
    (fun c => by rw [MvPolynomial.totalDegree_X]; omega) (fun q _ c => by simp) zero
  rw [gradientAt_gradOf, toMatrix_zero, zero_add, zero_add] at h
  rw [h]
  ext c e
  by_cases hce : c = e
  · subst hce; simp [gradientOf]
  · rw [gradientOf, MvPolynomial.pderiv_X_of_ne hce, map_zero, Matrix.one_apply_ne hce]

theorem sound_omega {B : Body} {D : Decompose} {order : Nat} {d : Nat → ℝ} {nbs : List (List Nat)} {w : Weights}
    (h : Sound B D order d nbs w) {b : Bond} (hb : b ∈ bondsOf nbs) :
    w.omega b.b = influenceOf B d b ∧ w.phi b.b = freshPhi B D order d (bondsAt (bondsOf nbs) b.i) b.i b := by
  have hlt : b.i < nbs.length := by
    obtain ⟨ns, h1, _⟩ := mem_bondsOf hb
    exact (List.getElem?_eq_some_iff.1 h1).1
  exact (h b.i hlt).2 b (List.mem_filter.mpr ⟨hb, by simp⟩)

theorem sound_phi {B : Body} {D : Decompose} {order : Nat} (ho : order ≠ 0) {d : Nat → ℝ} {nbs : List (List Nat)} {w : Weights}
    (h : Sound B D order d nbs w) {b : Bond} (hb : b ∈ bondsOf nbs) (h0 : w.omega b.b = 0) : w.phi b.b = 0 := by
  obtain ⟨e1, e2⟩ := sound_omega h hb
  rw [e1] at h0
  rw [e2]
  funext c
  rw [phi_eq ho rfl, h0]
  simp

theorem sound_nonneg {B : Body} {D : Decompose} {order : Nat} {d : Nat → ℝ} {nbs : List (List Nat)} {w : Weights}
    (h : Sound B D order d nbs w) (hi : ∀ a b, 0 ≤ B.influence a b) (hd : ∀ k, d k ≤ 1) {b : Bond} (hb : b ∈ bondsOf nbs) :
    0 ≤ w.omega b.b := by
  rw [(sound_omega h hb).1]
  exact mul_nonneg (hi _ _) (sub_nonneg.mpr (hd _))

/-- The work identity in a run. -/
theorem work_run {B : Body} {D : Decompose} {order : Nat} {U : Update} {nbs : List (List Nat)} (hU : Local nbs U) {ghost : Nat → ℝ}
    (hB : Whole B nbs) {d : Nat → ℝ} {s : State} (hrun : Run B D order U ghost nbs (Tame nbs) d s)
    {dt : ℝ} {H : Harm} (hH : Tame nbs d H) {u y v : Nat → V3} {g : Ghosts} {r : Result}
    (h : evaluation B D order U dt H u y v g s nbs.length (encode nbs) = .ok r) (z : Nat → V3) :
    ∑ k ∈ Finset.range nbs.length, B.volume k • vecMulVec (z k) (r.force k) =
      - ((bondsOf nbs).map fun b => bondMeasure B s.w0 r.pre.weights.omega b •
        (bondOf B (gradOf B r.pre.weights.phi z (bondsOf nbs)) z b * (r.piola b.b).toMatrixᵀ)).sum := by
  obtain ⟨hs, hps⟩ := paired_run hU hB.horizon hrun
  obtain ⟨q1, q2, -⟩ := paired_step hU hB.horizon hH.reported hs hH.paired hps h
  have hs' := sound_step hH.reported hs h
  have ho := (gradientWeights_fold (precompute_parts (evaluation_parts h).1).1).1
  exact work (force_parts (evaluation_parts h).2).2 hB.both hB.within
    (fun b hb => sound_nonneg hs' hB.influence hH.le_one hb) (fun b hb h0 => sound_phi ho hs' hb h0)
    (fun b hb b' hb' h1 h2 => q1.bonds ⟨hb, hb', h1, h2⟩) (fun b hb b' hb' h1 h2 _ => q2.bonds ⟨hb, hb', h1, h2⟩) z

end Verif.Assoc
