import Verif.Hypo.Cases
import Verif.Params.Model

/-!
# Hypoelastic correspondence material: velocity gradients and forces

C162: velocity gradients and Jacobian determinants.
C163: balance of forces, broken bonds, flying points, definedness.
C164: the actual horizon.
-/

noncomputable section

namespace Verif.Hypo

open Verif Verif.Neigh Verif.Mech Verif.Tensor Matrix
open Verif.Assoc (Body Decompose influenceOf bondGradient lenSq WellPlaced Follows gradientOf xi corner tetraNbs forceBond)
open Verif.Correspondence (bondsAt mem_bondsAt)
open scoped Classical

/-! ### C162 -/

theorem velGradTr_eq (L : M9) : velGradTr L = L.toMatrix.trace := by
  simp [velGradTr, trace, Fin.sum_univ_three, M9.toMatrix]

/-- **C162** At a point that does not fly, whose neighbors in their current positions determine fields of the chosen degree, the
velocity gradient of a velocity field of that degree is exact, and the Jacobian determinant grows by its trace. -/
theorem C162_exact {α β : Type} {B : Block} {D : Decompose} (hD : D.Correct) {order : Nat} {M : Material α β} {dt : ℝ} {H : Harm}
    {y v : Nat → V3} {g : Ghosts} {s : State α β} {nbs : List (List Nat)} {r : Result α β}
    (h : evaluation B D order M dt H y v g s nbs.length (encode nbs) = .ok r) {p : Nat} (hp : p < nbs.length)
    (hf : H.flag p < 1 / 2) (hh : 0 < B.horizon) (hw : WellPlaced (current B s.jacobian y) order H.bondDamage nbs p)
    {Z : Fin 3 → MvPolynomial (Fin 3) ℝ} (hZ : ∀ c, (Z c).totalDegree ≤ order) (hz : Follows (current B s.jacobian y) nbs p Z v) :
    (r.pre.grad p).toMatrix = gradientOf Z (y p) ∧
    r.pre.jacobian p = s.jacobian p * (1 + (gradientOf Z (y p)).trace * dt) := by
  have hpre := (evaluation_parts h).1
  have e := Verif.Assoc.gradient_exact hD hpre.positive hp (hpre.current p hp hf) hh hw hZ hz Tensor.zero
  rw [toMatrix_zero, zero_add] at e
  constructor
  · rw [hpre.grad, if_pos hp, if_pos hf, e]
    rfl
  · rw [hpre.jacobian, if_pos hp, if_pos hf, velGradTr_eq, e]
    rfl

example : ∃ (D : Decompose) (s : State Unit ℝ) (r : Result Unit ℝ), D.Correct ∧
    evaluation quad D 1 (elastic 3 1) 1 calm corner swirl still s tetraNbs.length (encode tetraNbs) = .ok r ∧
    calm.flag 0 < 1 / 2 ∧ WellPlaced (current quad s.jacobian corner) 1 calm.bondDamage tetraNbs 0 ∧
    Follows (current quad s.jacobian corner) tetraNbs 0 (Verif.Assoc.affine Verif.Assoc.spin0 0) swirl := by
  obtain ⟨D, hD, s, -, hJ, -, r, hr⟩ := quad_case
  exact ⟨D, s, r, hD, hr, by norm_num [calm], quad_placed hJ (fun _ => rfl) (by decide), fun q _ c => by
    rw [Verif.Assoc.affine_eval]; rfl⟩

/-- **C162** A flying point has no velocity gradient, and its Jacobian determinant becomes zero. -/
theorem C162_flying {α β : Type} {B : Block} {D : Decompose} {order : Nat} {M : Material α β} {dt : ℝ} {H : Harm}
    {y v : Nat → V3} {g : Ghosts} {s : State α β} {nbs : List (List Nat)} {r : Result α β}
    (h : evaluation B D order M dt H y v g s nbs.length (encode nbs) = .ok r) {p : Nat} (hp : p < nbs.length)
    (hf : 1 / 2 ≤ H.flag p) : r.pre.grad p = Tensor.zero ∧ (r.next s).jacobian p = 0 := by
  have hpre := (evaluation_parts h).1
  constructor
  · rw [hpre.grad, if_pos hp, if_neg (not_lt.mpr hf)]
  · show r.pre.jacobian p = 0
    rw [hpre.jacobian, if_pos hp, if_neg (not_lt.mpr hf)]

/-- Point 1 flies. -/
def flown : Harm := ⟨fun p => if p = 1 then 1 else -1, fun _ => 0⟩

example : ∃ r : Result Unit ℝ, evaluation twin plain 1 (elastic 1 0) 1 flown twinY twinY still (initialState () 0) twinNbs.length
    (encode twinNbs) = .ok r ∧ 1 / 2 ≤ flown.flag 1 := by
  obtain ⟨r, hr⟩ := twin_defined (M := elastic 1 0) (elastic_total 1 0) (elastic_total 1 0) 1 flown twinY still (s := initialState () 0) rfl
  exact ⟨r, hr, by norm_num [flown]⟩

/-- **C162** The velocity gradient of a bond of a point that does not fly maps the current bond to the difference of the velocities
of its ends, whatever the gradients at the ends. -/
theorem C162_bond {α β : Type} {B : Block} {D : Decompose} {order : Nat} {M : Material α β} {dt : ℝ} {H : Harm}
    {y v : Nat → V3} {g : Ghosts} {s : State α β} {nbs : List (List Nat)} {r : Result α β}
    (h : evaluation B D order M dt H y v g s nbs.length (encode nbs) = .ok r) {p t j : Nat} {ns : List Nat} (hp : nbs[p]? = some ns)
    (ht : ns[t]? = some j) (hf : H.flag p < 0) : (r.bondGrad (bondPos nbs p t)).toMatrix *ᵥ (y j - y p) = v j - v p := by
  have hb := Verif.Assoc.bond_mem hp ht
  have hparts := (evaluation_parts h).2
  have hne : y p ≠ y j := by
    intro e
    apply hparts.length _ hb hf
    rw [Verif.Assoc.lenSq_eq]
    have : xi (current B s.jacobian y) ⟨p, j, bondPos nbs p t⟩ = 0 := by
      show y j - y p = 0
      rw [e, sub_self]
    rw [this, zero_dotProduct]
  rw [hparts.bondGrad _ hb hf]
  exact Verif.Assoc.C141_follows (current B s.jacobian y) r.pre.grad v _ hne

example : ∃ r : Result Unit ℝ, evaluation twin plain 1 (elastic 1 0) 1 flown twinY twinY still (initialState () 0) twinNbs.length
    (encode twinNbs) = .ok r ∧ twinNbs[0]? = some [1] ∧ flown.flag 0 < 0 ∧ twinY 1 - twinY 0 ≠ 0 := by
  obtain ⟨r, hr⟩ := twin_defined (M := elastic 1 0) (elastic_total 1 0) (elastic_total 1 0) 1 flown twinY still (s := initialState () 0) rfl
  refine ⟨r, hr, rfl, by norm_num [flown], fun e => ?_⟩
  have := congrFun e 0
  norm_num [twinY] at this

/-- **C162** If no point flies, all neighbors are owned and determine affine fields, an affine velocity gives exact gradients at
points and at bonds. -/
theorem C162_affine {α β : Type} {B : Block} {D : Decompose} (hD : D.Correct) {order : Nat} {M : Material α β} {dt : ℝ} {H : Harm}
    {y v : Nat → V3} {g : Ghosts} {s : State α β} {nbs : List (List Nat)} {r : Result α β}
    (h : evaluation B D order M dt H y v g s nbs.length (encode nbs) = .ok r) (hN : Within nbs nbs.length)
    (hf : ∀ p, H.flag p < 0) (hh : 0 < B.horizon)
    (hw : ∀ p < nbs.length, WellPlaced (current B s.jacobian y) order H.bondDamage nbs p)
    {A : Matrix (Fin 3) (Fin 3) ℝ} {a : V3} (hv : ∀ k, v k = A *ᵥ y k + a) :
    (∀ p < nbs.length, (r.pre.grad p).toMatrix = A) ∧ ∀ b ∈ bondsOf nbs, (r.bondGrad b.b).toMatrix = A := by
  obtain ⟨hpre, hp⟩ := evaluation_parts h
  obtain ⟨h1, h2⟩ := affine_pre hD hpre hN hf hh hw hv
  exact ⟨h1, fun b hb => by rw [hp.bondGrad b hb (hf _)]; exact h2 b hb⟩

example : ∃ (D : Decompose) (s : State Unit ℝ) (r : Result Unit ℝ), D.Correct ∧
    evaluation quad D 1 (elastic 3 1) 1 calm corner swirl still s tetraNbs.length (encode tetraNbs) = .ok r ∧
    (∀ p < tetraNbs.length, WellPlaced (current quad s.jacobian corner) 1 calm.bondDamage tetraNbs p) ∧
    ∀ k, swirl k = Verif.Assoc.spin0 *ᵥ corner k + 0 := by
  obtain ⟨D, hD, s, -, hJ, -, r, hr⟩ := quad_case
  exact ⟨D, s, r, hD, hr, fun p hp => quad_placed hJ (fun _ => rfl) hp, fun _ => rfl⟩

/-! ### C163 -/

/-- **C163** The forces add up to zero, whatever the state, the damage, the flying points and the values received for ghost points. -/
theorem C163_force {α β : Type} {B : Block} {D : Decompose} {order : Nat} {M : Material α β} {dt : ℝ} {H : Harm}
    {y v : Nat → V3} {g : Ghosts} {s : State α β} {nbs : List (List Nat)} {r : Result α β}
    (h : evaluation B D order M dt H y v g s nbs.length (encode nbs) = .ok r) {N : Nat} (hN : Within nbs N) :
    totalForce B.volume r.force N = 0 := by
  have hp := (evaluation_parts h).2
  have e := sum_scattered N (fun k => B.volume k • LinearMap.id) (scatter_scattered hp.force)
    (fun b hb => bonds_within hN b (mem_live.mp hb).1) (by
      intro b _ f _
      simp only [LinearMap.smul_apply, LinearMap.id_apply, current]
      module)
  simpa [totalForce] using e

example : Within twinNbs 2 ∧ ∃ r : Result Unit ℝ, evaluation twin plain 1 (elastic 1 0) 1 flown twinY twinY still (initialState () 0)
    twinNbs.length (encode twinNbs) = .ok r ∧ r.force 1 = ![-1, 0, 0] := by
  obtain ⟨r, hr⟩ := twin_defined (M := elastic 1 0) (elastic_total 1 0) (elastic_total 1 0) 1 flown twinY still (s := initialState () 0) rfl
  refine ⟨by unfold Within twinNbs; simp, r, hr, ?_⟩
  rw [twin_step rfl (by simp [flown]) (Or.inr (by simp [flown])) hr]
  simp [flown]

/-- The force on a point comes from the bonds that do not vanish. -/
theorem force_zero {α β : Type} {C : Body} {M : Material α β} {dt : ℝ} {H : Harm} {J : Nat → ℝ} {v : Nat → V3} {s : State α β}
    {n : Nat} {bonds : List Bond} {r : Result α β} (hp : Parts C M dt H J v s n bonds r) {k : Nat}
    (h : ∀ b ∈ liveBonds H bonds, (b.i = k → J k = 0 ∨ ¬ 0 < r.pre.weights.omega b.b) ∧
      (b.j = k → J k = 0 ∨ ¬ 0 < r.pre.weights.omega b.b)) : r.force k = 0 := by
  obtain ⟨gs, h1, h2, h3⟩ := scatter_scattered hp.force
  rw [h3 k, Pi.zero_apply, zero_add]
  apply List.sum_eq_zero
  intro f hf
  obtain ⟨x, hx, rfl⟩ := List.mem_map.1 hf
  have hb : x.1 ∈ liveBonds H bonds := h1 ▸ List.mem_map_of_mem hx
  have hz : ¬ 0 < r.pre.weights.omega x.1.b → x.2 = 0 := fun ho => by
    rw [(Verif.Assoc.forceBond_ok (h2 x hx)).1, Verif.Assoc.pairForce, if_neg ho]
  have e1 : (if x.1.i = k then (J x.1.i * C.volume x.1.j) • x.2 else 0) = 0 := by
    split
    · next hi =>
      rcases (h _ hb).1 hi with h0 | h0
      · rw [hi, h0, zero_mul, zero_smul]
      · rw [hz h0, smul_zero]
    · rfl
  have e2 : (if x.1.j = k then (J x.1.j * C.volume x.1.i) • x.2 else 0) = 0 := by
    split
    · next hi =>
      rcases (h _ hb).2 hi with h0 | h0
      · rw [hi, h0, zero_mul, zero_smul]
      · rw [hz h0, smul_zero]
    · rfl
  unfold pull
  rw [e1, e2, sub_zero]

/-- **C163** A point all of whose bonds are broken, from it and to it, has no force. -/
theorem C163_broken {α β : Type} {B : Block} {D : Decompose} {order : Nat} {M : Material α β} {dt : ℝ} {H : Harm}
    {y v : Nat → V3} {g : Ghosts} {s : State α β} {nbs : List (List Nat)} {r : Result α β}
    (h : evaluation B D order M dt H y v g s nbs.length (encode nbs) = .ok r) {k : Nat}
    (hk : ∀ p ns t j, nbs[p]? = some ns → ns[t]? = some j → p = k ∨ j = k → H.bondDamage (bondPos nbs p t) = 1) :
    r.force k = 0 := by
  obtain ⟨hpre, hp⟩ := evaluation_parts h
  have key : ∀ b ∈ liveBonds H (bondsOf nbs), b.i = k ∨ b.j = k → ¬ 0 < r.pre.weights.omega b.b := by
    intro b hb hbk
    have hbm := (mem_live.mp hb).1
    obtain ⟨t, ⟨ns, a1, a2⟩, a3⟩ := bondsOf_pos hbm
    rw [hpre.omega b hbm, influenceOf, a3, hk _ _ _ _ a1 a2 hbk, sub_self, mul_zero]
    exact lt_irrefl _
  exact force_zero hp fun b hb => ⟨fun e => Or.inr (key b hb (Or.inl e)), fun e => Or.inr (key b hb (Or.inr e))⟩

/-- All bonds of the last corner are broken. -/
def loose : Harm := ⟨fun _ => -1, Verif.Assoc.lone.bondDamage⟩

example : ∃ r : Result Unit ℝ, evaluation quad plain 1 (elastic 3 1) 1 loose corner swirl still (initialState () 0) tetraNbs.length
    (encode tetraNbs) = .ok r ∧
    ∀ p ns t j, tetraNbs[p]? = some ns → ns[t]? = some j → p = 3 ∨ j = 3 → loose.bondDamage (bondPos tetraNbs p t) = 1 := by
  obtain ⟨r, hr⟩ := quad_defined plain (M := elastic 3 1) (elastic_total 3 1) (elastic_total 3 1) 1 loose swirl still
    (s := initialState () 0) rfl
  exact ⟨r, hr, fun _ _ _ _ => Verif.Assoc.lone_broken⟩

/-- **C163** A point whose Jacobian determinant is zero has no force, and its determinant stays zero: once it has flown for a step
a point is free of force for ever, whether or not it is flying. -/
theorem C163_flown {α β : Type} {B : Block} {D : Decompose} {order : Nat} {M : Material α β} {dt : ℝ} {H : Harm}
    {y v : Nat → V3} {g : Ghosts} {s : State α β} {nbs : List (List Nat)} {r : Result α β}
    (h : evaluation B D order M dt H y v g s nbs.length (encode nbs) = .ok r) {k : Nat} (hk : k < nbs.length)
    (hJ : s.jacobian k = 0) : r.force k = 0 ∧ (r.next s).jacobian k = 0 ∧ (r.again s).jacobian k = 0 := by
  obtain ⟨hpre, hp⟩ := evaluation_parts h
  refine ⟨force_zero hp fun b _ => ⟨fun _ => Or.inl hJ, fun _ => Or.inl hJ⟩, ?_, hJ⟩
  show r.pre.jacobian k = 0
  rw [hpre.jacobian, if_pos hk, hJ]
  split <;> simp

/-- Two evaluations: in the first one the last corner flies, in the second one it does not. -/
example : ∃ r r' : Result Unit ℝ, evaluation quad plain 1 (elastic 3 1) 1 ⟨fun p => if p = 3 then 1 else -1, fun _ => 0⟩ corner swirl still
      (initialState () 0) tetraNbs.length (encode tetraNbs) = .ok r ∧ (r.next (initialState () 0)).jacobian 3 = 0 ∧
    evaluation quad plain 1 (elastic 3 1) 0 calm corner swirl still ({ r.next (initialState () 0) with
      jacobian := fun p => if p = 3 then 0 else 1 }) tetraNbs.length (encode tetraNbs) = .ok r' := by
  obtain ⟨r, hr⟩ := quad_defined plain (M := elastic 3 1) (elastic_total 3 1) (elastic_total 3 1) 1
    ⟨fun p => if p = 3 then 1 else -1, fun _ => 0⟩ swirl still (s := initialState () 0) rfl
  obtain ⟨P, hP, h⟩ := evaluation_defined (B := quad) (D := plain) one_ne_zero (by norm_num [quad]) (M := elastic 3 1) (elastic_total 3 1)
    (elastic_total 3 1) 0 calm corner swirl still ({ r.next (initialState () 0) with jacobian := fun p => if p = 3 then 0 else 1 })
    (nbs := tetraNbs)
  obtain ⟨r', hr'⟩ := h fun b hbm _ => by
    obtain ⟨hi, hj⟩ := bonds_within Verif.Assoc.tetra_within b hbm
    have hp := precompute_parts (bondsOf_nodup tetraNbs) hP
    have key : ∀ p < tetraNbs.length, P.w0 p ≠ 0 := by
      intro p hlt
      rw [hp.w0, if_pos hlt, undamagedVolume_eq, Verif.Assoc.bonds_at_sum tetraNbs hlt]
      have hp : p < 4 := hlt
      interval_cases p <;> (simp [tetraNbs, quad, current]; try norm_num)
    exact ⟨Verif.Assoc.tetra_distinct b hbm, fun _ => ⟨key _ hi, key _ hj⟩⟩
  exact ⟨r, r', hr, (C162_flying hr (by decide) (by norm_num)).2, hr'⟩

/-- **C163** But in the first step in which it flies, a point still has the forces of the bonds of its neighbors. -/
theorem C163_first_flight_fails : ∃ (B : Block) (D : Decompose) (H : Harm) (y v : Nat → V3) (g : Ghosts) (nbs : List (List Nat))
    (r : Result Unit ℝ), D.Correct ∧ evaluation B D 1 (elastic 1 0) 1 H y v g (initialState () 0) nbs.length (encode nbs) = .ok r ∧
    H.flag 1 = 1 ∧ r.force 1 = ![-1, 0, 0] := by
  obtain ⟨r, hr⟩ := twin_defined (M := elastic 1 0) (elastic_total 1 0) (elastic_total 1 0) 1 flown twinY still (s := initialState () 0) rfl
  refine ⟨twin, plain, flown, twinY, twinY, still, twinNbs, r, plain_correct, hr, by simp [flown], ?_⟩
  rw [twin_step rfl (by simp [flown]) (Or.inr (by simp [flown])) hr]
  simp [flown]

/-- **C163** The two weighted volumes of a point are the sums of influence times current volume over its neighbors, with and without the
factor that the damage of the bond leaves; without damage they agree, and with all bonds broken the first is zero. -/
theorem C163_volumes {α β : Type} {B : Block} {D : Decompose} {order : Nat} {M : Material α β} {dt : ℝ} {H : Harm}
    {y v : Nat → V3} {g : Ghosts} {s : State α β} {nbs : List (List Nat)} {r : Result α β}
    (h : evaluation B D order M dt H y v g s nbs.length (encode nbs) = .ok r) {p : Nat} (hp : p < nbs.length) :
    r.pre.w0 p = ((nbs.getD p []).zipIdx.map fun (j, _) =>
      B.influence (len (y j - y p)) B.horizon * (s.jacobian j * B.volume j)).sum ∧
    r.pre.w p = ((nbs.getD p []).zipIdx.map fun (j, t) => (1 - H.bondDamage (bondPos nbs p t)) *
      (B.influence (len (y j - y p)) B.horizon * (s.jacobian j * B.volume j))).sum ∧
    ((∀ k, H.bondDamage k = 0) → r.pre.w p = r.pre.w0 p) ∧ ((∀ k, H.bondDamage k = 1) → r.pre.w p = 0) := by
  obtain ⟨hpre, -⟩ := evaluation_parts h
  have h0 : r.pre.w0 p = ((nbs.getD p []).zipIdx.map fun (j, _) =>
      B.influence (len (y j - y p)) B.horizon * (s.jacobian j * B.volume j)).sum := by
    rw [hpre.w0, if_pos hp, undamagedVolume_eq, Verif.Assoc.bonds_at_sum nbs hp]
    rfl
  have h1 : r.pre.w p = ((nbs.getD p []).zipIdx.map fun (j, t) => (1 - H.bondDamage (bondPos nbs p t)) *
      (B.influence (len (y j - y p)) B.horizon * (s.jacobian j * B.volume j))).sum := by
    rw [hpre.w, if_pos hp, damagedVolume_eq, Verif.Assoc.bonds_at_sum nbs hp]
    congr 1
    refine List.map_congr_left fun x _ => ?_
    exact mul_assoc _ _ _
  refine ⟨h0, h1, fun hd => ?_, fun hd => ?_⟩
  · rw [h0, h1]
    simp [hd]
  · rw [h1]
    simp [hd]

example : ∃ r : Result Unit ℝ, evaluation twin plain 1 (elastic 1 0) 1 flown twinY twinY still (initialState () 0) twinNbs.length
    (encode twinNbs) = .ok r ∧ r.pre.w 0 = r.pre.w0 0 := by
  obtain ⟨r, hr⟩ := twin_defined (M := elastic 1 0) (elastic_total 1 0) (elastic_total 1 0) 1 flown twinY still (s := initialState () 0) rfl
  exact ⟨r, hr, (C163_volumes hr (by decide)).2.2.1 fun _ => rfl⟩

/-- **C163** An evaluation is defined if the order of accuracy and the horizon are not zero, neighborhoods are mutual, volumes and
Jacobian determinants are positive, neighbors of points that do not fly are elsewhere, and the stress updates are defined. -/
theorem C163_defined {α β : Type} {B : Block} (D : Decompose) {order : Nat} (ho : order ≠ 0) (hh : B.horizon ≠ 0) {M : Material α β}
    (hn : ∀ dt D s a o, ∃ r, M.node dt D s a o = .ok r) (hb : ∀ dt D s a o, ∃ r, M.bond dt D s a o = .ok r)
    {nbs : List (List Nat)} (hB : Whole B nbs) (hV : ∀ p, 0 < B.volume p) (dt : ℝ) {H : Harm} {y : Nat → V3} (v : Nat → V3) (g : Ghosts)
    {s : State α β} (hJ : ∀ p < nbs.length, 0 < s.jacobian p)
    (hy : ∀ p j, HasBond nbs p j → H.flag p < 0 → y p ≠ y j) :
    ∃ r, evaluation B D order M dt H y v g s nbs.length (encode nbs) = .ok r := by
  obtain ⟨P, hP, h⟩ := evaluation_defined (B := B) (D := D) ho hh hn hb dt H y v g s (nbs := nbs)
  refine h fun b hbm hf => ⟨hy _ _ (mem_bondsOf hbm) hf, fun hom => ?_⟩
  have hp := precompute_parts (bondsOf_nodup nbs) hP
  have hinf : 0 < B.influence (len (xi (current B s.jacobian y) b)) B.horizon := by
    rw [hp.omega b hbm, influenceOf] at hom
    rcases lt_or_eq_of_le (hB.influence (len (xi (current B s.jacobian y) b)) B.horizon) with h0 | h0
    · exact h0
    · change 0 < B.influence (len (xi (current B s.jacobian y) b)) B.horizon * _ at hom
      rw [← h0, zero_mul] at hom
      exact absurd hom (lt_irrefl _)
  have key : ∀ b ∈ bondsOf nbs, 0 < B.influence (len (xi (current B s.jacobian y) b)) B.horizon → P.w0 b.i ≠ 0 := by
    intro b hbm hinf
    obtain ⟨hi, hj⟩ := bonds_within hB.within b hbm
    rw [hp.w0, if_pos hi, undamagedVolume_eq]
    have hterm : ∀ c ∈ bondsAt (bondsOf nbs) b.i, 0 ≤ B.influence (len (xi (current B s.jacobian y) c)) B.horizon *
        (s.jacobian c.j * B.volume c.j) := by
      intro c hc
      exact mul_nonneg (hB.influence _ _)
        (mul_nonneg (hJ _ (bonds_within hB.within c (List.mem_filter.mp hc).1).2).le (hV _).le)
    have hle := List.single_le_sum (l := (bondsAt (bondsOf nbs) b.i).map fun c =>
      B.influence (len (xi (current B s.jacobian y) c)) B.horizon * (s.jacobian c.j * B.volume c.j)) (by
        intro x hx
        obtain ⟨c, hc, rfl⟩ := List.mem_map.1 hx
        exact hterm c hc) _ (List.mem_map_of_mem (List.mem_filter.mpr ⟨hbm, by simp⟩ : b ∈ bondsAt (bondsOf nbs) b.i))
    have hpos := mul_pos hinf (mul_pos (hJ _ hj) (hV b.j))
    exact (lt_of_lt_of_le hpos hle).ne'
  refine ⟨key b hbm hinf, ?_⟩
  obtain ⟨hi, hj⟩ := bonds_within hB.within b hbm
  have hrev : ∃ b' ∈ bondsOf nbs, b'.i = b.j ∧ b'.j = b.i := by
    obtain ⟨ns, h1, h2⟩ := mem_bondsOf hbm
    have hc : 0 < (nbs.getD b.i []).count b.j := by
      rw [List.getD_eq_getElem?_getD, h1, Option.getD_some]
      exact List.count_pos_iff.mpr h2
    rw [hB.both b.i b.j] at hc
    have hget : nbs[b.j]? = some (nbs.getD b.j []) := by
      rw [List.getD_eq_getElem?_getD, List.getElem?_eq_getElem hj, Option.getD_some]
    obtain ⟨t, ht⟩ := List.getElem?_of_mem (List.count_pos_iff.mp hc)
    exact ⟨⟨b.j, b.i, bondPos nbs b.j t⟩, Verif.Assoc.bond_mem hget ht, rfl, rfl⟩
  obtain ⟨b', hb', e1, e2⟩ := hrev
  rw [← e1]
  refine key b' hb' ?_
  rw [Verif.Assoc.xi_swap e1 e2]
  have : len (-xi (current B s.jacobian y) b) = len (xi (current B s.jacobian y) b) := by
    unfold len
    simp
  rw [this]
  exact hinf

example : Whole quad tetraNbs ∧ (∀ p, 0 < quad.volume p) ∧ (∀ p < tetraNbs.length, 0 < (initialState () (0 : ℝ)).jacobian p) ∧
    ∀ p j, HasBond tetraNbs p j → calm.flag p < 0 → corner p ≠ corner j := by
  refine ⟨quad_whole, fun _ => one_pos, fun _ _ => one_pos, fun p j h _ => ?_⟩
  obtain ⟨ns, h1, h2⟩ := h
  obtain ⟨t, ht⟩ := List.getElem?_of_mem h2
  exact Verif.Assoc.tetra_distinct _ (Verif.Assoc.bond_mem h1 ht)

/-- **C163** If all neighbors of a point have Jacobian determinant zero, while one of its bonds is not broken, the evaluation divides by
its weighted volume, which is zero. -/
theorem C163_isolated_fails {α β : Type} {B : Block} {D : Decompose} {order : Nat} {M : Material α β} {dt : ℝ} {H : Harm}
    {y v : Nat → V3} {g : Ghosts} {s : State α β} {nbs : List (List Nat)} {p : Nat} (hp : p < nbs.length) (hf : H.flag p < 0)
    (hJ : ∀ j, HasBond nbs p j → s.jacobian j = 0) {ns : List Nat} {t j : Nat} (h1 : nbs[p]? = some ns) (h2 : ns[t]? = some j)
    (hi : 0 < B.influence (len (y j - y p)) B.horizon) (hd : H.bondDamage (bondPos nbs p t) < 1) :
    ¬ ∃ r, evaluation B D order M dt H y v g s nbs.length (encode nbs) = .ok r := by
  rintro ⟨r, h⟩
  obtain ⟨hpre, hparts⟩ := evaluation_parts h
  have hbm := Verif.Assoc.bond_mem h1 h2
  have hpos : 0 < r.pre.weights.omega (bondPos nbs p t) := by
    rw [hpre.omega _ hbm]
    exact mul_pos hi (sub_pos.mpr hd)
  have hne := (((Verif.Assoc.integral_points _ hparts.integral p).1 (mem_livePoints.mpr ⟨hp, hf⟩)).2 _ (Verif.Assoc.bond_at h1 h2) hpos).1
  apply hne
  show r.pre.w0 p = 0
  rw [hpre.w0, if_pos hp, undamagedVolume_eq]
  apply List.sum_eq_zero
  intro x hx
  obtain ⟨b, hb, rfl⟩ := List.mem_map.1 hx
  obtain ⟨hbi, ns', h3, h4⟩ := mem_bondsAt hb
  show _ * (s.jacobian b.j * _) = 0
  rw [hJ b.j ⟨ns', h3, h4⟩, zero_mul, mul_zero]

/-- The step after the one in which the neighbor began to fly. -/
example : ∃ r : Result Unit ℝ, evaluation twin plain 1 (elastic 1 0) 1 flown twinY twinY still (initialState () 0) twinNbs.length
      (encode twinNbs) = .ok r ∧ (∀ j, HasBond twinNbs 0 j → (r.next (initialState () 0)).jacobian j = 0) ∧ flown.flag 0 < 0 ∧
    twinNbs[0]? = some [1] ∧ 0 < twin.influence (len (twinY 1 - twinY 0)) twin.horizon ∧ flown.bondDamage (bondPos twinNbs 0 0) < 1 := by
  obtain ⟨r, hr⟩ := twin_defined (M := elastic 1 0) (elastic_total 1 0) (elastic_total 1 0) 1 flown twinY still (s := initialState () 0) rfl
  refine ⟨r, hr, fun j hj => ?_, by norm_num [flown], rfl, one_pos, one_pos⟩
  obtain ⟨ns, h1, h2⟩ := hj
  simp [twinNbs] at h1
  subst h1
  simp only [List.mem_cons, List.not_mem_nil, or_false] at h2
  subst h2
  exact (C162_flying hr (by decide) (by norm_num [flown])).2

/-! ### C164 -/

/-- **C164** With the influence function "Parabolic Decay" a point has no force if it is farther than the actual horizon from all
points with which it shares a bond. -/
theorem C164_cut {α β : Type} {B : Block} (hI : ∀ a x, Verif.Params.parabolicDecay a B.horizon = .ok x → B.influence a B.horizon = x)
    {D : Decompose} {order : Nat} {M : Material α β} {dt : ℝ} {H : Harm}
    {y v : Nat → V3} {g : Ghosts} {s : State α β} {nbs : List (List Nat)} {r : Result α β}
    (h : evaluation B D order M dt H y v g s nbs.length (encode nbs) = .ok r) {k : Nat}
    (hk : ∀ p j, HasBond nbs p j → p = k ∨ j = k → B.horizon < len (y j - y p)) : r.force k = 0 := by
  obtain ⟨hpre, hp⟩ := evaluation_parts h
  have key : ∀ b ∈ liveBonds H (bondsOf nbs), b.i = k ∨ b.j = k → ¬ 0 < r.pre.weights.omega b.b := by
    intro b hb hbk
    have hbm := (mem_live.mp hb).1
    have hl := hk _ _ (mem_bondsOf hbm) hbk
    rw [hpre.omega b hbm, influenceOf]
    have e : (current B s.jacobian y).influence (len (xi (current B s.jacobian y) b)) ((current B s.jacobian y).horizon b.i) = 0 :=
      hI (len (y b.j - y b.i)) 0 (by rw [Verif.Params.parabolicDecay, if_pos hl])
    rw [e, zero_mul]
    exact lt_irrefl _
  exact force_zero hp fun b hb => ⟨fun e => Or.inr (key b hb (Or.inl e)), fun e => Or.inr (key b hb (Or.inr e))⟩

/-- Two points beyond the horizon with the function that decays. -/
def apart : Block where
  volume := fun _ => 1
  horizon := 1 / 2
  influence := fun a d => match Verif.Params.parabolicDecay a d with
    | .ok x => x
    | _ => 0

theorem twin_length {p j : Nat} (h : HasBond twinNbs p j) : 1 / 2 < len (twinY j - twinY p) := by
  obtain ⟨ns, h1, h2⟩ := h
  have : len (twinY j - twinY p) = 1 := by
    rcases p with _ | _ | p <;> simp [twinNbs] at h1 <;> subst h1 <;>
      simp only [List.mem_cons, List.not_mem_nil, or_false] at h2 <;> subst h2 <;> simp [len, twinY]
  rw [this]
  norm_num

example : (∀ a x, Verif.Params.parabolicDecay a apart.horizon = .ok x → apart.influence a apart.horizon = x) ∧
    (∀ p j, HasBond twinNbs p j → p = 1 ∨ j = 1 → apart.horizon < len (twinY j - twinY p)) ∧
    ∃ r : Result Unit ℝ, evaluation apart plain 1 (elastic 1 0) 1 calm twinY twinY still (initialState () 0) twinNbs.length
      (encode twinNbs) = .ok r := by
  refine ⟨fun a x h => by simp only [apart] at h ⊢; rw [h], fun p j h _ => twin_length h, ?_⟩
  obtain ⟨P, hP, h⟩ := evaluation_defined (B := apart) (D := plain) one_ne_zero (by norm_num [apart]) (M := elastic 1 0)
    (elastic_total 1 0) (elastic_total 1 0) 1 calm twinY twinY still (initialState () 0) (nbs := twinNbs)
  refine h fun b hbm _ => ?_
  have hl := twin_length (mem_bondsOf hbm)
  constructor
  · intro e
    rw [e, sub_self] at hl
    norm_num [len] at hl
  · intro hom
    rw [(precompute_parts (bondsOf_nodup twinNbs) hP).omega b hbm, influenceOf] at hom
    have e : (current apart (initialState () (0 : ℝ)).jacobian twinY).influence (len (xi (current apart (initialState () (0 : ℝ)).jacobian twinY) b))
        ((current apart (initialState () (0 : ℝ)).jacobian twinY).horizon b.i) = 0 := by
      show (match Verif.Params.parabolicDecay (len (twinY b.j - twinY b.i)) (1 / 2) with | .ok x => x | _ => (0 : ℝ)) = 0
      rw [Verif.Params.parabolicDecay, if_pos hl]
    rw [e, zero_mul] at hom
    exact absurd hom (lt_irrefl _)

/-- **C164** With the default influence function, which is constant, the actual horizon cuts nothing off: two points farther apart
than it pull at each other. -/
theorem C164_default_fails : ∃ (B : Block) (D : Decompose) (H : Harm) (y v : Nat → V3) (g : Ghosts) (nbs : List (List Nat))
    (r : Result Unit ℝ), (∀ a d, B.influence a d = 1) ∧ D.Correct ∧
    evaluation B D 1 (elastic 1 0) 1 H y v g (initialState () 0) nbs.length (encode nbs) = .ok r ∧
    (∀ p j, HasBond nbs p j → B.horizon < len (y j - y p)) ∧ r.force 1 = ![-2, 0, 0] := by
  obtain ⟨r, hr⟩ := twin_defined (M := elastic 1 0) (elastic_total 1 0) (elastic_total 1 0) 1 calm twinY still (s := initialState () 0) rfl
  refine ⟨twin, plain, calm, twinY, twinY, still, twinNbs, r, fun _ _ => rfl, plain_correct, hr, fun p j h => twin_length h, ?_⟩
  rw [twin_step rfl (by simp [calm]) (Or.inl (by simp [calm])) hr]
  norm_num [calm]

end Verif.Hypo
