import Verif.Lps.Lemmas
import Verif.Energy.Props

/-!
# The linear peridynamic solid: properties

C135: forces balance; moments balance about the reference positions only; what is refused; broken bonds.
C136: the force is linear in the displacement, vanishes for infinitesimal rigid motions, is reciprocal and passive.
C137 (in `TangentProps`): it is the derivative of the force of the nonlinear elastic material.
-/

noncomputable section

namespace Verif.Lps

open Verif Verif.Neigh Verif.Mech Verif.Energy
open scoped Classical

/-! ### C135 -/

/-- **C135** The forces of the material add up to zero. -/
theorem C135_force {C : Config} {K mu : ℝ} {S : Stored} {nbs : List (List Nat)} {ghost : (Nat → ℝ) → Nat → ℝ}
    {theta : Nat → ℝ} {F : Nat → V3} (h : evaluate C .cells K mu S nbs.length (encode nbs) ghost = .ok (theta, F))
    {N : Nat} (hN : Within nbs N) : totalForce C.v F N = 0 :=
  force_of_scattered (evaluate_parts h).2.2 (bonds_within hN)

/-- **C135** With partial volumes they do if, for every bond, the two partial volumes are in the ratio of the volumes of the
cells. -/
theorem C135_partials {C : Config} {s n : Nat → ℝ} {K mu : ℝ} {S : Stored} {nbs : List (List Nat)} {ghost : (Nat → ℝ) → Nat → ℝ}
    {theta : Nat → ℝ} {F : Nat → V3}
    (h : evaluate C (.partials s n) K mu S nbs.length (encode nbs) ghost = .ok (theta, F))
    {N : Nat} (hN : Within nbs N)
    (hv : ∀ p ns t j, nbs[p]? = some ns → ns[t]? = some j →
      C.v p * n (bondPos nbs p t) = C.v j * s (bondPos nbs p t)) : totalForce C.v F N = 0 := by
  unfold evaluate at h
  split at h
  · simp only at h
    split at h
    · next G hG =>
      cases h
      unfold force at hG
      rw [visited_encode] at hG
      simp only at hG
      rw [forceLoop_partials] at hG
      have := sum_scattered N (fun k => C.v k • LinearMap.id) (scatter_scattered hG) (bonds_within hN) (by
        intro b hb g _
        obtain ⟨t, ⟨ns, h1, h2⟩, h3⟩ := bondsOf_pos hb
        have := hv _ _ _ _ h1 h2
        simp only [LinearMap.smul_apply, LinearMap.id_apply, h3, smul_smul]
        rw [mul_comm, this, mul_comm])
      simpa [totalForce] using this
    · cases h
    · cases h
  · cases h
  · cases h

/-- **C135** The moments of the forces about the positions in the beginning add up to zero. -/
theorem C135_moment {C : Config} {K mu : ℝ} {S : Stored} {nbs : List (List Nat)} {ghost : (Nat → ℝ) → Nat → ℝ}
    {theta : Nat → ℝ} {F : Nat → V3} (h : evaluate C .cells K mu S nbs.length (encode nbs) ghost = .ok (theta, F))
    {N : Nat} (hN : Within nbs N) : totalMoment C.x C.v F N = 0 := by
  have h3 := (evaluate_parts h).2.2
  exact moment_of_scattered (C := { C with y := C.x }) (h3.mono fun b _ g hg => ⟨_, hg⟩) (bonds_within hN)

/-- **C135** The forces are defined if no bond had length zero and no weighted volume that is needed is zero; where the
points are now does not matter. -/
theorem C135_defined {C : Config} (K mu : ℝ) {S : Stored} {nbs : List (List Nat)} (hr : Ready C S nbs)
    (ghost : (Nat → ℝ) → Nat → ℝ) : ∃ theta F, evaluate C .cells K mu S nbs.length (encode nbs) ghost = .ok (theta, F) :=
  evaluate_defined K mu (ready_bonds hr) ghost

/-- **C135** At a point all of whose bonds are broken, from it and to it, there is no force. -/
theorem C135_broken {C : Config} {K mu : ℝ} {S : Stored} {nbs : List (List Nat)} {ghost : (Nat → ℝ) → Nat → ℝ}
    {theta : Nat → ℝ} {F : Nat → V3} (h : evaluate C .cells K mu S nbs.length (encode nbs) ghost = .ok (theta, F))
    {k : Nat} (hk : ∀ p ns t j, nbs[p]? = some ns → ns[t]? = some j → p = k ∨ j = k → C.damage (bondPos nbs p t) = 1) :
    F k = 0 := by
  rw [evaluate_force h k]
  apply List.sum_eq_zero
  intro x hx
  obtain ⟨b, hb, rfl⟩ := List.mem_map.1 hx
  obtain ⟨t, ⟨ns, h1, h2⟩, h3⟩ := bondsOf_pos hb
  by_cases hbk : b.i = k ∨ b.j = k
  · have : coef C K mu S (dil C S nbs (disp C)) b = 0 := by
      rw [coef, h3, hk _ _ _ _ h1 h2 hbk, sub_self, zero_mul]
    rw [this, zero_smul]
    simp [pull]
  · push Not at hbk
    rw [pull, if_neg hbk.1, if_neg hbk.2, sub_zero]

/-- **C135** A material that asks for an option Peridigm was not compiled with, or for both, is not built. -/
theorem C135_refused (B : Build) (R : Request) :
    construct B R = .fail .runtimeError ↔
      (R.partialVolume = true ∧ B.partialVolume = false) ∨ (R.quadrature = true ∧ B.quadrature = false) ∨
        (R.partialVolume = true ∧ R.quadrature = true) := by
  obtain ⟨a, b⟩ := B
  obtain ⟨c, d⟩ := R
  cases a <;> cases b <;> cases c <;> cases d <;> simp [construct]

/-- **C135** Otherwise it is built as asked for. -/
theorem C135_accepted {B : Build} {R : Request} (h : construct B R ≠ .fail .runtimeError) : construct B R = .ok R := by
  unfold construct at h ⊢
  split at h
  · exact absurd rfl h
  · next h1 =>
    rw [if_neg h1]
    split at h
    · exact absurd rfl h
    · next h2 =>
      rw [if_neg h2]
      split at h
      · exact absurd rfl h
      · next h3 => rw [if_neg h3]

example : construct ⟨false, false⟩ ⟨true, false⟩ = .fail .runtimeError ∧ construct ⟨true, false⟩ ⟨true, false⟩ = .ok ⟨true, false⟩ :=
  ⟨rfl, rfl⟩

/-- **C135** The functions of linear_lps_pv.cxx, which nothing calls, compute the same forces and dilatations. -/
theorem C135_kernel (C : Config) (W : Weights) (hW : ∀ w, W ≠ .quadrature w) (K mu : ℝ) (S : Stored) (theta : Nat → ℝ)
    (nbs : List (List Nat)) :
    lpsForce { C with m := S.m } K mu (volumes W) (some S.infl) theta nbs.length (encode nbs) 0 =
      force C W K mu S theta nbs.length (encode nbs) ∧
    ∀ th, precompute C W S nbs.length (encode nbs) = .ok th → ∀ p < nbs.length,
      lpsDilatation { C with m := S.m } (volumes W) (some S.infl) (bondsOf nbs) p = .ok (th p) := by
  constructor
  · unfold lpsForce kernel force
    rw [visited_encode]
    simp only
    have hp : (lpsBond { C with m := S.m } K mu (some S.infl) theta) = pair C K mu S theta := by
      funext b
      unfold lpsBond pair
      have hz : normSquared C b = Config.zeta { C with m := S.m } b * Config.zeta { C with m := S.m } b := by
        rw [normSquared_eq, sq]
        rfl
      have hiff : (S.m b.i = 0 ∨ Config.zeta { C with m := S.m } b = 0) ↔ (S.m b.i = 0 ∨ normSquared C b = 0) := by
        rw [hz, mul_self_eq_zero]
      by_cases hc : S.m b.i = 0 ∨ normSquared C b = 0
      · rw [if_pos hc, if_pos (hiff.2 hc)]
      · rw [if_neg hc, if_neg (fun h => hc (hiff.1 h))]
        refine congrArg Outcome.ok (funext fun c => ?_)
        unfold term
        simp only [hz, mul_assoc]
        rfl
    rw [hp]
    cases W with
    | cells => rw [forceLoop_cells]; rfl
    | partials s n => rw [forceLoop_partials]; rfl
    | quadrature w => exact absurd rfl (hW w)
  · intro th hth p hp
    unfold precompute at hth
    rw [visited_encode] at hth
    simp only at hth
    split at hth
    · cases hth
    · next hm =>
      cases hth
      have hd : ∀ bs, lpsDilatationSum { C with m := S.m } (volumes W) (some S.infl) bs = dilatationSum C W S bs := by
        intro bs
        unfold lpsDilatationSum dilatationSum
        congr 1
        funext t b
        cases W with
        | cells => rfl
        | partials s n => rfl
        | quadrature w => exact absurd rfl (hW w)
      unfold lpsDilatation
      simp only [hd, if_pos hp]
      by_cases hl : ((bondsOf nbs).filter fun b => b.i = p).length > 0
      · rw [if_pos hl, if_pos hl, if_neg]
        intro h0
        obtain ⟨b, hb⟩ := List.exists_mem_of_length_pos hl
        obtain ⟨hb1, hb2⟩ := List.mem_filter.1 hb
        exact hm ⟨b, hb1, by rw [of_decide_eq_true hb2]; exact h0⟩
      · rw [if_neg hl, if_neg hl]

/-! ### C136 -/

theorem along_lin (C : Config) (a b : ℝ) (u w : Nat → V3) (c : Bond) :
    along C (fun k => a • u k + b • w k) c = a * along C u c + b * along C w c := by
  unfold along
  simp only [dotProduct_sub, dotProduct_add, dotProduct_smul, smul_eq_mul]
  ring

theorem dil_lin (C : Config) (S : Stored) (nbs : List (List Nat)) (a b : ℝ) (u w : Nat → V3) (p : Nat) :
    dil C S nbs (fun k => a • u k + b • w k) p = a * dil C S nbs u p + b * dil C S nbs w p := by
  unfold dil
  have : ((bondsAt nbs p).map fun c => wt C S c * along C (fun k => a • u k + b • w k) c).sum =
      ((bondsAt nbs p).map fun c => a * (wt C S c * along C u c) + b * (wt C S c * along C w c)).sum := by
    congr 1
    apply List.map_congr_left
    intro c _
    rw [along_lin]
    ring
  rw [this, sum_combine]
  ring

theorem disp_displaced (C : Config) (u : Nat → V3) : disp (displaced C u) = u := by
  funext k
  simp [disp, displaced]

theorem evaluate_at {C : Config} {u : Nat → V3} {K mu : ℝ} {S : Stored} {nbs : List (List Nat)} {ghost : (Nat → ℝ) → Nat → ℝ}
    {theta : Nat → ℝ} {F : Nat → V3}
    (h : evaluate (displaced C u) .cells K mu S nbs.length (encode nbs) ghost = .ok (theta, F)) :
    (∀ p < nbs.length, theta p = dil C S nbs u p) ∧
    ∀ k, F k = ((bondsOf nbs).map fun b => pull (selfVol C) (nbrVol C) k
      (b, ((1 - C.damage b.b) * ((9 * K - 15 * mu) * S.infl b.b * dil C S nbs u b.i / (3 * S.m b.i) +
        15 * mu * S.infl b.b / (S.m b.i * C.zeta b ^ 2) * along C u b)) • xd C b)).sum := by
  have h1 := (evaluate_parts h).1
  have h2 := evaluate_force h
  rw [disp_displaced] at h1 h2
  refine ⟨h1, fun k => ?_⟩
  rw [h2 k]
  unfold coef
  rw [disp_displaced]
  rfl

theorem pull_lin (vi vj : Bond → ℝ) (k : Nat) (b : Bond) (a a' : ℝ) (g g' : V3) :
    pull vi vj k (b, a • g + a' • g') = a • pull vi vj k (b, g) + a' • pull vi vj k (b, g') := by
  unfold pull
  simp only
  split <;> split <;> module

theorem sum_vec (l : List Bond) (f g : Bond → V3) (a a' : ℝ) :
    (l.map fun b => a • f b + a' • g b).sum = a • (l.map f).sum + a' • (l.map g).sum := by
  induction l with
  | nil => simp
  | cons b l ih =>
    simp only [List.map_cons, List.sum_cons]
    rw [ih]
    module

/-- **C136** Dilatation and force are linear in the displacement. -/
theorem C136_linear {C : Config} {K mu : ℝ} {S : Stored} {nbs : List (List Nat)} {ghost : (Nat → ℝ) → Nat → ℝ}
    {u w : Nat → V3} {theta theta' : Nat → ℝ} {F F' : Nat → V3}
    (h : evaluate (displaced C u) .cells K mu S nbs.length (encode nbs) ghost = .ok (theta, F))
    (h' : evaluate (displaced C w) .cells K mu S nbs.length (encode nbs) ghost = .ok (theta', F')) (a b : ℝ) :
    ∃ t G, evaluate (displaced C fun k => a • u k + b • w k) .cells K mu S nbs.length (encode nbs) ghost = .ok (t, G) ∧
      (∀ p < nbs.length, t p = a * theta p + b * theta' p) ∧ ∀ k, G k = a • F k + b • F' k := by
  obtain ⟨t, G, hG⟩ := evaluate_defined (C := displaced C fun k => a • u k + b • w k) K mu
    (evaluate_parts h).2.1 ghost
  refine ⟨t, G, hG, fun p hp => ?_, fun k => ?_⟩
  · rw [(evaluate_at hG).1 p hp, (evaluate_at h).1 p hp, (evaluate_at h').1 p hp, dil_lin]
  · rw [(evaluate_at hG).2 k, (evaluate_at h).2 k, (evaluate_at h').2 k, ← sum_vec]
    congr 1
    apply List.map_congr_left
    intro c _
    rw [← pull_lin]
    congr 2
    rw [dil_lin, along_lin, smul_smul, smul_smul, ← add_smul]
    congr 1
    ring

theorem cross_along (a w : V3) (C : Config) (b : Bond) : along C (fun k => a + crossProduct w (C.x k)) b = 0 := by
  unfold along xd
  simp only [_root_.dotProduct, Fin.sum_univ_three, cross_apply, Pi.sub_apply, Pi.add_apply, Matrix.cons_val_zero,
    Matrix.cons_val_one, Matrix.cons_val]
  ring

/-- **C136** For an infinitesimal rigid motion (translation plus a rotation to first order) there are neither dilatation nor
forces. -/
theorem C136_rigid {C : Config} {K mu : ℝ} {S : Stored} {nbs : List (List Nat)} {ghost : (Nat → ℝ) → Nat → ℝ}
    {a w : V3} {theta : Nat → ℝ} {F : Nat → V3}
    (h : evaluate (displaced C fun k => a + crossProduct w (C.x k)) .cells K mu S nbs.length (encode nbs) ghost = .ok (theta, F)) :
    (∀ p < nbs.length, theta p = 0) ∧ ∀ k, F k = 0 := by
  have hd : ∀ p, dil C S nbs (fun k => a + crossProduct w (C.x k)) p = 0 := by
    intro p
    unfold dil
    simp [cross_along]
  refine ⟨fun p hp => ?_, fun k => ?_⟩
  · rw [(evaluate_at h).1 p hp, hd]
  · rw [(evaluate_at h).2 k]
    apply List.sum_eq_zero
    intro x hx
    obtain ⟨b, hb, rfl⟩ := List.mem_map.1 hx
    rw [hd, cross_along]
    simp [pull]

/-- **C136** The forces are reciprocal: those of one displacement do the same work on another as those of the other on it. -/
theorem C136_reciprocal {C : Config} {K mu : ℝ} {S : Stored} {nbs : List (List Nat)} {ghost : (Nat → ℝ) → Nat → ℝ}
    {u w : Nat → V3} {theta theta' : Nat → ℝ} {F F' : Nat → V3}
    (h : evaluate (displaced C u) .cells K mu S nbs.length (encode nbs) ghost = .ok (theta, F))
    (h' : evaluate (displaced C w) .cells K mu S nbs.length (encode nbs) ghost = .ok (theta', F')) {N : Nat}
    (hN : Within nbs N) : power C F w N = power C F' u N := by
  have e1 : power C F w N = power (displaced C u) F w N := rfl
  have e2 : power C F' u N = power (displaced C w) F' u N := rfl
  rw [e1, e2, power_eq h w hN, power_eq h' u hN, disp_displaced, disp_displaced]
  congr 1
  apply Finset.sum_congr rfl
  intro p _
  congr 1
  have : ((bondsAt nbs p).map fun b => wt (displaced C u) S b *
      (along (displaced C u) u b * along (displaced C u) w b / (displaced C u).zeta b ^ 2)).sum =
      ((bondsAt nbs p).map fun b => wt (displaced C w) S b *
      (along (displaced C w) w b * along (displaced C w) u b / (displaced C w).zeta b ^ 2)).sum := by
    congr 1
    apply List.map_congr_left
    intro b _
    show wt C S b * (along C u b * along C w b / C.zeta b ^ 2) = wt C S b * (along C w b * along C u b / C.zeta b ^ 2)
    ring
  rw [this]
  show (K - 5 * mu / 3) * dil C S nbs u p * dil C S nbs w p + _ = (K - 5 * mu / 3) * dil C S nbs w p * dil C S nbs u p + _
  ring

/-- Twice the energy of a point, as a sum of squares. -/
theorem square_sum {C : Config} {K mu : ℝ} {S : Stored} {nbs : List (List Nat)} (hS : SetUp C nbs S)
    (hb : ∀ b ∈ bondsOf nbs, S.m b.i ≠ 0 ∧ C.zeta b ≠ 0) (u : Nat → V3) {p : Nat} (hp : p < nbs.length) (hm : S.m p ≠ 0) :
    (K - 5 * mu / 3) * dil C S nbs u p * dil C S nbs u p + 15 * mu / S.m p *
        ((bondsAt nbs p).map fun b => wt C S b * (along C u b * along C u b / C.zeta b ^ 2)).sum =
      K * dil C S nbs u p ^ 2 + 15 * mu / S.m p *
        (((bondsAt nbs p).map fun b => wt C S b * (along C u b / C.zeta b - dil C S nbs u p * C.zeta b / 3) ^ 2).sum +
        dil C S nbs u p ^ 2 / 9 * ((bondsAt nbs p).map fun b => C.om b * C.damage b.b * C.v b.j * C.zeta b ^ 2).sum) := by
  obtain ⟨hi, hw⟩ := setUp_spec hS
  have e1 : ((bondsAt nbs p).map fun b => wt C S b * (along C u b / C.zeta b - dil C S nbs u p * C.zeta b / 3) ^ 2).sum =
      ((bondsAt nbs p).map fun b => wt C S b * (along C u b / C.zeta b) * (along C u b / C.zeta b)).sum -
      dil C S nbs u p / 3 * ((bondsAt nbs p).map fun b => wt C S b * C.zeta b * (along C u b / C.zeta b)).sum -
      dil C S nbs u p / 3 * ((bondsAt nbs p).map fun b => wt C S b * C.zeta b * (along C u b / C.zeta b)).sum +
      dil C S nbs u p * dil C S nbs u p / 9 * ((bondsAt nbs p).map fun b => wt C S b * C.zeta b ^ 2).sum := by
    rw [← sum_expand]
    congr 1
    apply List.map_congr_left
    intro b _
    ring
  have e2 : ((bondsAt nbs p).map fun b => wt C S b * C.zeta b * (along C u b / C.zeta b)).sum =
      ((bondsAt nbs p).map fun b => wt C S b * along C u b).sum := by
    congr 1
    apply List.map_congr_left
    intro b hb'
    have := (hb b (List.mem_filter.1 hb').1).2
    field_simp
  have e3 : ((bondsAt nbs p).map fun b => wt C S b * (along C u b / C.zeta b) * (along C u b / C.zeta b)).sum =
      ((bondsAt nbs p).map fun b => wt C S b * (along C u b * along C u b / C.zeta b ^ 2)).sum := by
    congr 1
    apply List.map_congr_left
    intro b hb'
    ring
  have e4 : ((bondsAt nbs p).map fun b => wt C S b * C.zeta b ^ 2).sum +
      ((bondsAt nbs p).map fun b => C.om b * C.damage b.b * C.v b.j * C.zeta b ^ 2).sum = S.m p := by
    rw [hw p hp, ← Pals.list_add]
    congr 1
    apply List.map_congr_left
    intro b hb'
    rw [wt, hi b (List.mem_filter.1 hb').1]
    ring
  have e5 : ((bondsAt nbs p).map fun b => wt C S b * along C u b).sum = dil C S nbs u p * S.m p / 3 := by
    unfold dil
    field_simp
  rw [e1, e2, e3, e5]
  generalize ((bondsAt nbs p).map fun b => wt C S b * (along C u b * along C u b / C.zeta b ^ 2)).sum = X
  generalize ((bondsAt nbs p).map fun b => wt C S b * C.zeta b ^ 2).sum = Y at e4 ⊢
  generalize ((bondsAt nbs p).map fun b => C.om b * C.damage b.b * C.v b.j * C.zeta b ^ 2).sum = Z at e4 ⊢
  obtain rfl : Y = S.m p - Z := by linarith
  field_simp
  ring

theorem m_nonneg {C : Config} {K mu : ℝ} (ha : Sound C K mu) {S : Stored} {nbs : List (List Nat)} (hS : SetUp C nbs S)
    {p : Nat} (hp : p < nbs.length) : 0 ≤ S.m p := by
  rw [(setUp_spec hS).2 p hp]
  exact list_nonneg fun b _ => mul_nonneg (mul_nonneg (ha.influence _ _) (sq_nonneg _)) (ha.volume _).le

theorem wt_nonneg {C : Config} {K mu : ℝ} (ha : Sound C K mu) {S : Stored} {nbs : List (List Nat)} (hS : SetUp C nbs S)
    {b : Bond} (hb : b ∈ bondsOf nbs) : 0 ≤ wt C S b := by
  rw [wt, (setUp_spec hS).1 b hb]
  exact mul_nonneg (mul_nonneg (ha.influence _ _) (by linarith [(ha.damage b.b).2])) (ha.volume _).le

/-- The energy of a point is not negative, and zero only if no bond that carries force changes its length. -/
theorem point_nonneg {C : Config} {K mu : ℝ} (ha : Sound C K mu) {S : Stored} {nbs : List (List Nat)} (hS : SetUp C nbs S)
    (hb : ∀ b ∈ bondsOf nbs, S.m b.i ≠ 0 ∧ C.zeta b ≠ 0) (u : Nat → V3) {p : Nat} (hp : p < nbs.length) :
    let q := (K - 5 * mu / 3) * dil C S nbs u p * dil C S nbs u p + 15 * mu / S.m p *
        ((bondsAt nbs p).map fun b => wt C S b * (along C u b * along C u b / C.zeta b ^ 2)).sum
    0 ≤ q ∧ (q = 0 ↔ ∀ b ∈ bondsAt nbs p, wt C S b ≠ 0 → along C u b = 0) := by
  intro q
  by_cases hm : S.m p = 0
  · have hnil : bondsAt nbs p = [] := by
      apply List.filter_eq_nil_iff.2
      intro b hb' hbp
      have : b.i = p := by simpa using hbp
      exact (hb b hb').1 (this ▸ hm)
    have : q = 0 := by
      simp only [q, dil, hnil]
      simp
    rw [this, hnil]
    simp
  · have hq : q = _ := square_sum (K := K) (mu := mu) hS hb u hp hm
    have hmp : 0 < S.m p := lt_of_le_of_ne (m_nonneg ha hS hp) (Ne.symm hm)
    have h1 : 0 ≤ K * dil C S nbs u p ^ 2 := mul_nonneg ha.bulk.le (sq_nonneg _)
    have hf : ∀ b ∈ bondsAt nbs p, 0 ≤ wt C S b * (along C u b / C.zeta b - dil C S nbs u p * C.zeta b / 3) ^ 2 :=
      fun b hb' => mul_nonneg (wt_nonneg ha hS (List.mem_filter.1 hb').1) (sq_nonneg _)
    have h2 := list_nonneg hf
    have h3 : 0 ≤ dil C S nbs u p ^ 2 / 9 *
        ((bondsAt nbs p).map fun b => C.om b * C.damage b.b * C.v b.j * C.zeta b ^ 2).sum := by
      refine mul_nonneg (by positivity) (list_nonneg fun b _ => ?_)
      exact mul_nonneg (mul_nonneg (mul_nonneg (ha.influence _ _) (ha.damage _).1) (ha.volume _).le) (sq_nonneg _)
    have h4 : 0 < 15 * mu / S.m p := by
      have := ha.shear
      positivity
    refine ⟨by rw [hq]; exact add_nonneg h1 (mul_nonneg h4.le (add_nonneg h2 h3)), ?_⟩
    rw [hq]
    constructor
    · intro h0
      have h5 := mul_nonneg h4.le (add_nonneg h2 h3)
      have h6 : K * dil C S nbs u p ^ 2 = 0 := by linarith
      have hd : dil C S nbs u p = 0 := pow_eq_zero_iff two_ne_zero |>.1 ((mul_eq_zero.1 h6).resolve_left ha.bulk.ne')
      have h7 := le_antisymm (by linarith) h5
      have h8 := (mul_eq_zero.1 h7).resolve_left h4.ne'
      have h9 : ((bondsAt nbs p).map fun b =>
          wt C S b * (along C u b / C.zeta b - dil C S nbs u p * C.zeta b / 3) ^ 2).sum = 0 := by linarith
      intro b hb' hw
      have h10 := list_zero hf h9 b hb'
      have h11 := pow_eq_zero_iff two_ne_zero |>.1 ((mul_eq_zero.1 h10).resolve_left hw)
      rw [hd] at h11
      have hz := (hb b (List.mem_filter.1 hb').1).2
      have : along C u b / C.zeta b = 0 := by linarith
      exact (div_eq_zero_iff.1 this).resolve_right hz
    · intro hk
      have hd : dil C S nbs u p = 0 := by
        unfold dil
        rw [List.sum_eq_zero, mul_zero]
        intro x hx
        obtain ⟨b, hb', rfl⟩ := List.mem_map.1 hx
        by_cases hw : wt C S b = 0
        · rw [hw, zero_mul]
        · rw [hk b hb' hw, mul_zero]
      have hs : ((bondsAt nbs p).map fun b =>
          wt C S b * (along C u b / C.zeta b - dil C S nbs u p * C.zeta b / 3) ^ 2).sum = 0 := by
        apply List.sum_eq_zero
        intro x hx
        obtain ⟨b, hb', rfl⟩ := List.mem_map.1 hx
        by_cases hw : wt C S b = 0
        · rw [hw, zero_mul]
        · rw [hk b hb' hw, hd]
          ring
      rw [hs, hd]
      ring

theorem kept_iff {C : Config} {K mu : ℝ} (ha : Sound C K mu) {S : Stored} {nbs : List (List Nat)} (hS : SetUp C nbs S)
    (u : Nat → V3) : LengthsKept C nbs u ↔ ∀ p < nbs.length, ∀ b ∈ bondsAt nbs p, wt C S b ≠ 0 → along C u b = 0 := by
  have hw : ∀ b ∈ bondsOf nbs, wt C S b ≠ 0 ↔ C.damage b.b < 1 ∧ 0 < C.om b := by
    intro b hb
    rw [wt, (setUp_spec hS).1 b hb]
    have h1 := (ha.damage b.b).2
    have h2 : 0 ≤ C.om b := ha.influence _ _
    have h3 := ha.volume b.j
    constructor
    · intro h
      refine ⟨lt_of_le_of_ne h1 fun h0 => h ?_, lt_of_le_of_ne h2 fun h0 => h ?_⟩
      · rw [h0]; ring
      · rw [← h0]; ring
    · rintro ⟨h4, h5⟩
      have : 0 < 1 - C.damage b.b := by linarith
      positivity
  constructor
  · intro hk p hp b hb hwb
    obtain ⟨hb1, hb2⟩ := List.mem_filter.1 hb
    obtain ⟨t, ⟨ns, h1, h2⟩, h3⟩ := bondsOf_pos hb1
    obtain ⟨h4, h5⟩ := (hw b hb1).1 hwb
    exact hk _ _ _ _ h1 h2 (h3 ▸ h4) h5
  · intro hk p ns t j h1 h2 h3 h4
    have hb : (⟨p, j, bondPos nbs p t⟩ : Bond) ∈ bondsAt nbs p := by
      rw [bondsAt, filter_bondsOf nbs h1]
      exact List.mem_map.2 ⟨(j, t), List.mk_mem_zipIdx_iff_getElem?.2 h2, rfl⟩
    exact hk p (List.getElem?_eq_some_iff.1 h1).1 _ hb ((hw _ (List.mem_filter.1 hb).1).2 ⟨h3, h4⟩)

/-- **C136** The forces resist: their work on the displacement is never positive, and zero only if, to first order, no bond that
carries force changes its length. -/
theorem C136_resists {C : Config} {K mu : ℝ} (ha : Sound C K mu) {S : Stored} {nbs : List (List Nat)} (hS : SetUp C nbs S)
    {ghost : (Nat → ℝ) → Nat → ℝ} {u : Nat → V3} {theta : Nat → ℝ} {F : Nat → V3}
    (h : evaluate (displaced C u) .cells K mu S nbs.length (encode nbs) ghost = .ok (theta, F)) {N : Nat} (hN : Within nbs N) :
    power C F u N ≤ 0 ∧ (power C F u N = 0 ↔ LengthsKept C nbs u) := by
  have e1 : power C F u N = power (displaced C u) F u N := rfl
  have hb : ∀ b ∈ bondsOf nbs, S.m b.i ≠ 0 ∧ C.zeta b ≠ 0 := (evaluate_parts h).2.1
  rw [e1, power_eq h u hN, disp_displaced, kept_iff ha hS]
  have hq := fun p (hp : p ∈ Finset.range nbs.length) => point_nonneg ha hS hb u (Finset.mem_range.1 hp)
  have hnn : ∀ p ∈ Finset.range nbs.length, 0 ≤ ((K - 5 * mu / 3) * dil C S nbs u p * dil C S nbs u p + 15 * mu / S.m p *
        ((bondsAt nbs p).map fun b => wt C S b * (along C u b * along C u b / C.zeta b ^ 2)).sum) * C.v p :=
    fun p hp => mul_nonneg (hq p hp).1 (ha.volume p).le
  constructor
  · exact neg_nonpos.2 (Finset.sum_nonneg hnn)
  · rw [neg_eq_zero]
    refine (Finset.sum_eq_zero_iff_of_nonneg hnn).trans ?_
    constructor
    · intro h0 p hp
      have := h0 p (Finset.mem_range.2 hp)
      exact (hq p (Finset.mem_range.2 hp)).2.1 ((mul_eq_zero.1 this).resolve_right (ha.volume p).ne')
    · intro h0 p hp
      rw [(hq p hp).2.2 (h0 p (Finset.mem_range.1 hp)), zero_mul]

end Verif.Lps
