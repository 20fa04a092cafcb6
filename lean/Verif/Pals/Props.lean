import Verif.Pals.Forces
import Verif.Energy.Props
import Mathlib.Analysis.Calculus.Deriv.Slope
import Mathlib.Algebra.BigOperators.Field

/-!
# Properties C132 to C134: the position-aware linear solid
-/

noncomputable section

namespace Verif.Pals

open Verif Verif.Neigh Verif.Mech Verif.Energy
open scoped Classical Matrix Topology

/-! ### C132: the influence functions match -/

theorem setUp_match {L : Law} {C : Config} {nbs : List (List Nat)} {S : Setup} (h : SetUp L C nbs S) {p : Nat}
    (hp : p < nbs.length) (hv : ∀ b ∈ bondsAt nbs p, 0 ≤ C.v b.j) {i : Fin 6} (hi : Sees C nbs p i) :
    ((bondsAt nbs p).map fun b => omega L C S b * quad (unitStrain i) (xi C b) * C.v b.j).sum = (unitStrain i).trace ∧
      ((bondsAt nbs p).map fun b =>
        sigma L C S b * (quad (deviator (unitStrain i)) (xi C b) / len (xi C b)) ^ 2 * C.v b.j).sum =
        square (deviator (unitStrain i)) := by
  obtain ⟨S0, h⟩ := h
  obtain ⟨h1, h2, h3, _⟩ := prepare_spec h hp
  obtain ⟨h4, h5⟩ := multipliers_match h1
  obtain ⟨h6, h7⟩ := h5 i (not_out hv hi)
  rw [List.map_map] at h6 h7
  rw [trace_unit, square_unit, ← h6, ← h7]
  constructor
  · congr 1
    apply List.map_congr_left
    intro b hb
    have hbi : b.i = p := of_decide_eq_true (List.mem_filter.1 hb).2
    simp only [Function.comp_apply, dilModes_eq]
    unfold omega
    rw [hbi, h2, one_mul]
  · congr 1
    apply List.map_congr_left
    intro b hb
    have hbi : b.i = p := of_decide_eq_true (List.mem_filter.1 hb).2
    have hl : len (xi C b) ≠ 0 := h4 (xi C b, C.v b.j) (List.mem_map_of_mem hb)
    simp only [Function.comp_apply, devModes_eq hl]
    unfold sigma
    rw [hbi, h3, one_mul, sq]

theorem strained_bond (C : Config) (E : Matrix (Fin 3) (Fin 3) ℝ) (s : ℝ) :
    strained C E s = shifted { C with y := C.x } (fun k => E *ᵥ C.x k) s := rfl

theorem rate_strained {C : Config} {E : Matrix (Fin 3) (Fin 3) ℝ} (b : Bond) :
    rate { C with y := C.x } (fun k => E *ᵥ C.x k) b = quad E (xi C b) / len (xi C b) := by
  unfold rate quad xi
  rw [Matrix.mulVec_sub]
  rfl

theorem setUp_len {L : Law} {C : Config} {nbs : List (List Nat)} {S : Setup} (h : SetUp L C nbs S) :
    ∀ b ∈ bondsOf nbs, len (xi C b) ≠ 0 := by
  obtain ⟨S0, h⟩ := h
  intro b hb
  obtain ⟨ns, h1, _⟩ := mem_bondsOf hb
  have hp := (List.getElem?_eq_some_iff.1 h1).1
  obtain ⟨h4, _⟩ := multipliers_match (prepare_spec h hp).1
  exact h4 (xi C b, C.v b.j) (List.mem_map_of_mem (f := fun b => (xi C b, C.v b.j))
    (List.mem_filter.2 ⟨hb, by simp⟩))

theorem sum_entries (E : Matrix (Fin 3) (Fin 3) ℝ) (d : V3) : quad E d = ∑ i, entry E i * quad (unitStrain i) d := by
  rw [quad_eq]
  simp [entry, Fin.sum_univ_succ]
  ring

theorem trace_entries (E : Matrix (Fin 3) (Fin 3) ℝ) : E.trace = ∑ i, entry E i * (unitStrain i).trace := by
  simp only [trace_unit]
  simp [entry, Fin.sum_univ_succ, Matrix.trace]

theorem theta_rate {L : Law} {C : Config} {nbs : List (List Nat)} {S : Setup} (h : SetUp L C nbs S) {p : Nat}
    (hp : p < nbs.length) (hv : ∀ b ∈ bondsAt nbs p, 0 ≤ C.v b.j) {E : Matrix (Fin 3) (Fin 3) ℝ}
    (hE : ∀ i, Sees C nbs p i ∨ entry E i = 0) :
    HasDerivAt (fun s => thetaAt L (strained C E s) S nbs p) E.trace 0 := by
  have hl := setUp_len h
  have := theta_deriv (L := L) (C := { C with y := C.x }) (S := S) (nbs := nbs) (fun k => E *ᵥ C.x k) p hl
  refine this.congr_deriv ?_
  have e : ∀ b ∈ bondsAt nbs p, omega L { C with y := C.x } S b * Config.zeta { C with y := C.x } b *
      rate { C with y := C.x } (fun k => E *ᵥ C.x k) b * C.v b.j =
      ∑ i, entry E i * (omega L C S b * quad (unitStrain i) (xi C b) * C.v b.j) := by
    intro b hb
    have hlb := hl b (List.mem_filter.1 hb).1
    rw [rate_strained, sum_entries, Finset.sum_div, Finset.mul_sum, Finset.sum_mul]
    apply Finset.sum_congr rfl
    intro i _
    change omega L C S b * len (xi C b) * _ * _ = _
    field_simp
  rw [List.map_congr_left e, trace_entries]
  have e2 : ∀ (l : List Bond) (f : Bond → Fin 6 → ℝ), (l.map fun b => ∑ i, entry E i * f b i).sum =
      ∑ i, entry E i * (l.map fun b => f b i).sum := by
    intro l f
    induction l with
    | nil => simp
    | cons b l ih =>
      simp only [List.map_cons, List.sum_cons, mul_add, Finset.sum_add_distrib]
      rw [ih]
  rw [e2]
  apply Finset.sum_congr rfl
  intro i _
  rcases hE i with hi | hi
  · rw [(setUp_match h hp hv hi).1]
  · rw [hi, zero_mul, zero_mul]

/-- C132, volume: once the material is set up, straining the body by a small multiple of any strain `E` gives a point of positive
volumes around it the dilatation of the classical theory, the trace of the strain, at first order.  The point may be near the
surface and its neighbors may lie as they like, as long as the bonds see those matching strains of which `E` is made. -/
theorem C132_dilatation {L : Law} {C : Config} {nbs : List (List Nat)} {S : Setup} (h : SetUp L C nbs S) {p : Nat}
    (hp : p < nbs.length) (hv : ∀ b ∈ bondsAt nbs p, 0 ≤ C.v b.j) {E : Matrix (Fin 3) (Fin 3) ℝ}
    (hE : ∀ i, Sees C nbs p i ∨ entry E i = 0) {theta : ℝ → Nat → ℝ}
    (ht : ∀ᶠ s in 𝓝 0, ∃ th F, material L (strained C E s) S nbs.length (encode nbs) th = .ok (theta s, F)) :
    HasDerivAt (fun s => theta s p) E.trace 0 := by
  refine (theta_rate h hp hv hE).congr_of_eventuallyEq ?_
  filter_upwards [ht] with s hs
  obtain ⟨th, F, hs⟩ := hs
  exact (material_parts hs).1 p hp

theorem slope_limit {f : ℝ → ℝ} {f' : ℝ} (h : HasDerivAt f f' 0) (h0 : f 0 = 0) :
    Filter.Tendsto (fun s => f s / s) (𝓝[≠] 0) (𝓝 f') := by
  have := hasDerivAt_iff_tendsto_slope.1 h
  refine this.congr fun s => ?_
  rw [slope_def_field, h0, sub_zero, sub_zero]

theorem list_tendsto {l : List Bond} {f : Bond → ℝ → ℝ} {a : Bond → ℝ} {F : Filter ℝ}
    (h : ∀ b ∈ l, Filter.Tendsto (f b) F (𝓝 (a b))) :
    Filter.Tendsto (fun s => (l.map fun b => f b s).sum) F (𝓝 (l.map a).sum) := by
  induction l with
  | nil => simpa using tendsto_const_nhds
  | cons b l ih =>
    simp only [List.map_cons, List.sum_cons]
    exact (h b List.mem_cons_self).add (ih fun c hc => h c (List.mem_cons_of_mem _ hc))

/-- C132, energy: for each of the six matching strains that the bonds of a point see, the stored energy of the point is that of
the classical theory at second order. -/
theorem C132_energy {L : Law} {C : Config} {nbs : List (List Nat)} {S : Setup} (h : SetUp L C nbs S) {p : Nat}
    (hp : p < nbs.length) (hv : ∀ b ∈ bondsAt nbs p, 0 ≤ C.v b.j) {i : Fin 6} (hi : Sees C nbs p i) {U : ℝ → Nat → ℝ}
    (hU : ∀ᶠ s in 𝓝 0, ∃ th theta F U0, material L (strained C (unitStrain i) s) S nbs.length (encode nbs) th = .ok (theta, F) ∧
      storedEnergy L (strained C (unitStrain i) s) S theta nbs.length (encode nbs) U0 = .ok (U s)) :
    Filter.Tendsto (fun s => U s p / s ^ 2) (𝓝[≠] 0)
      (𝓝 ((L.K / 2 * (unitStrain i).trace ^ 2 + L.mu * square (deviator (unitStrain i))) * C.v p)) := by
  set E := unitStrain i with hEdef
  have hentry : ∀ j, Sees C nbs p j ∨ entry E j = 0 := by
    intro j
    by_cases hj : j = i
    · subst hj; exact Or.inl hi
    · right
      rw [hEdef]
      fin_cases i <;> fin_cases j <;> simp [entry, unitStrain] <;> exact absurd rfl hj
  have hl := setUp_len h
  have he0 : ∀ b, elong (strained C E 0) b = 0 := by
    intro b
    unfold elong Config.dY Config.yd Config.zeta strained
    simp
  have hth := slope_limit (theta_rate h hp hv hentry) (by
    unfold thetaAt
    simp [he0])
  have hel : ∀ b ∈ bondsAt nbs p, Filter.Tendsto (fun s => elong (strained C E s) b / s) (𝓝[≠] 0)
      (𝓝 (quad E (xi C b) / len (xi C b))) := by
    intro b hb
    have := elong_deriv { C with y := C.x } (fun k => E *ᵥ C.x k) b (hl b (List.mem_filter.1 hb).1)
    rw [rate_strained] at this
    exact slope_limit this (he0 b)
  have hsum := list_tendsto (l := bondsAt nbs p) (F := 𝓝[≠] 0)
    (f := fun b s => sigma L C S b * C.v b.j *
      (elong (strained C E s) b / s - thetaAt L (strained C E s) S nbs p / s * len (xi C b) / 3) ^ 2)
    (a := fun b => sigma L C S b * C.v b.j * (quad E (xi C b) / len (xi C b) - E.trace * len (xi C b) / 3) ^ 2)
    (fun b hb => (((hel b hb).sub ((hth.mul_const _).div_const 3)).pow 2).const_mul _)
  have hlim := (((hth.pow 2).const_mul (L.K / 2)).add (hsum.const_mul L.mu)).mul_const (C.v p)
  have hval : ((bondsAt nbs p).map fun b => sigma L C S b * C.v b.j *
      (quad E (xi C b) / len (xi C b) - E.trace * len (xi C b) / 3) ^ 2).sum = square (deviator E) := by
    rw [← (setUp_match h hp hv hi).2]
    congr 1
    apply List.map_congr_left
    intro b hb
    have hlb := hl b (List.mem_filter.1 hb).1
    have : quad E (xi C b) / len (xi C b) - E.trace * len (xi C b) / 3 = quad (deviator E) (xi C b) / len (xi C b) := by
      rw [eq_div_iff hlb, sub_mul, div_mul_cancel₀ _ hlb]
      have h2 := len_sq (xi C b)
      have : quad (deviator E) (xi C b) = quad E (xi C b) - E.trace / 3 * (len (xi C b) * len (xi C b)) := by
        rw [h2]
        unfold quad deviator
        rw [Matrix.sub_mulVec, dotProduct_sub, Matrix.smul_mulVec, Matrix.one_mulVec, dotProduct_smul]
        simp [dotProduct, Fin.sum_univ_three]
      rw [this]
      ring
    rw [this]
    ring
  rw [hval] at hlim
  refine hlim.congr' ?_
  have hU' := hU.filter_mono (nhdsWithin_le_nhds (s := {0}ᶜ))
  filter_upwards [hU', self_mem_nhdsWithin] with s hs hs0
  obtain ⟨th, theta, F, U0, hs1, hs2⟩ := hs
  have hs0 : s ≠ 0 := hs0
  rw [storedEnergy_eq hs2 hp]
  unfold pointEnergy
  rw [(material_parts hs1).1 p hp]
  have e : ((bondsAt nbs p).map fun b => sigma L (strained C E s) S b * (strained C E s).v b.j *
      (elong (strained C E s) b - thetaAt L (strained C E s) S nbs p * (strained C E s).zeta b / 3) ^ 2).sum =
      s ^ 2 * ((bondsAt nbs p).map fun b => sigma L C S b * C.v b.j *
      (elong (strained C E s) b / s - thetaAt L (strained C E s) S nbs p / s * len (xi C b) / 3) ^ 2).sum := by
    rw [← sum_scale]
    congr 1
    apply List.map_congr_left
    intro b _
    change sigma L C S b * C.v b.j * (_ - _ * len (xi C b) / 3) ^ 2 = _
    field_simp
  rw [e]
  change _ = _ * C.v p / s ^ 2
  generalize ((bondsAt nbs p).map fun b => sigma L C S b * C.v b.j *
      (elong (strained C E s) b / s - thetaAt L (strained C E s) S nbs p / s * len (xi C b) / 3) ^ 2).sum = Z
  field_simp

theorem first_read {nbs : List (List Nat)} (h : nbs ≠ []) : ∃ a, readAt (encode nbs) 0 = .ok a := by
  cases nbs with
  | nil => exact absurd rfl h
  | cons ns nbs => exact ⟨ns.length, rfl⟩

/-- C132, set-up: if volumes are positive, no bond has length zero and the bonds of every point determine the multipliers, the
set-up succeeds. -/
theorem C132_defined (L : Law) {C : Config} {nbs : List (List Nat)} (hne : nbs ≠ [])
    (hv : ∀ b ∈ bondsOf nbs, 0 < C.v b.j) (hx : ∀ b ∈ bondsOf nbs, C.x b.j ≠ C.x b.i)
    (hd : ∀ p < nbs.length, Determined C nbs p) : ∃ S, SetUp L C nbs S := by
  have hl : ∀ b ∈ bondsOf nbs, len (xi C b) ≠ 0 := fun b hb h0 => hx b hb (sub_eq_zero.1 (len_eq_zero.1 h0))
  have hpt : ∀ p ∈ List.range nbs.length, ∃ r, multipliersOf L C.horizon
      ((bondsAt nbs p).map fun b => (xi C b, C.v b.j)) = .ok r := by
    intro p hp
    have hp := List.mem_range.1 hp
    set bs := (bondsAt nbs p).map fun b => (xi C b, C.v b.j) with hbs
    have hvb : ∀ b ∈ bs, 0 < b.2 := by
      intro b hb
      obtain ⟨c, hc, rfl⟩ := List.mem_map.1 hb
      exact hv c (List.mem_filter.1 hc).1
    have hsees : ∀ i, ¬ Sees C nbs p i → Out (gram bs) i := by
      intro i hi
      unfold Sees at hi
      push Not at hi
      have hpos : 0 < ∑ j, share C nbs p j := by
        have h0 : 0 ≤ share C nbs p i := by
          apply List.sum_nonneg
          intro x hx
          obtain ⟨b, hb, rfl⟩ := List.mem_map.1 hx
          exact mul_nonneg (sq_nonneg _) (hv b (List.mem_filter.1 hb).1).le
        nlinarith
      unfold Out
      rw [traceOf_eq]
      simp only [hbs, gram_diag]
      exact ⟨hpos.ne', by rw [div_lt_iff₀ hpos]; exact hi⟩
    obtain ⟨s1, s2, _, _⟩ := systemOf_spec L C.horizon bs
    have d1 : (systemOf L C.horizon bs).k.det ≠ 0 := by
      refine repaired_regular hvb (fun b i => dilModes b.1 i) s1 fun w hw hb => ?_
      apply (hd p hp).volume w (fun i hi => hw i (hsees i hi))
      intro b hbb
      have := hb (xi C b, C.v b.j) (List.mem_map_of_mem hbb)
      rw [← this]
      apply Finset.sum_congr rfl
      intro i _
      simp only [dilModes_eq]
      rw [mul_comm]
      rfl
    have d2 : (systemOf L C.horizon bs).kDev.det ≠ 0 := by
      refine repaired_regular hvb (fun b i => devModes b.1 i * devModes b.1 i) s2 fun w hw hb => ?_
      apply (hd p hp).shape w (fun i hi => hw i (hsees i hi))
      intro b hbb
      have := hb (xi C b, C.v b.j) (List.mem_map_of_mem hbb)
      have hlb := hl b (List.mem_filter.1 hbb).1
      have e : ∑ i, w i * quad (deviator (unitStrain i)) (C.x b.j - C.x b.i) ^ 2 =
          len (xi C b) ^ 2 * ∑ i, devModes (xi C b) i * devModes (xi C b) i * w i := by
        rw [Finset.mul_sum]
        apply Finset.sum_congr rfl
        intro i _
        rw [devModes_eq hlb]
        change w i * quad _ (xi C b) ^ 2 = _
        field_simp
      rw [e, this, mul_zero]
    obtain ⟨w, hw⟩ := solve_defined d1 (systemOf L C.horizon bs).rhsDil
    obtain ⟨t, ht⟩ := solve_defined d2 (systemOf L C.horizon bs).rhsDev
    refine ⟨(w, t), ?_⟩
    unfold multipliersOf
    rw [if_neg (by
      rintro ⟨b, hb, h0⟩
      obtain ⟨c, hc, rfl⟩ := List.mem_map.1 hb
      exact hl c (List.mem_filter.1 hc).1 h0)]
    simp only [hw, ht]
  obtain ⟨S', hS⟩ := multipliersLoop_ok hpt ⟨0, 0, 0, 0, 0⟩
  refine ⟨{ S' with m := weightedVolume L C S' (bondsOf nbs) nbs.length }, ⟨0, 0, 0, 0, 0⟩, ?_⟩
  obtain ⟨a, ha⟩ := first_read hne
  rw [prepare, ha, visited_encode]
  simp only [hS]

theorem multipliersOf_cases {L : Law} {h : ℝ} {bs : List (V3 × ℝ)} (hl : ∀ b ∈ bs, len b.1 ≠ 0) :
    (∃ r, multipliersOf L h bs = .ok r) ∨ multipliersOf L h bs = .fail .runtimeError := by
  unfold multipliersOf
  rw [if_neg (by rintro ⟨b, hb, h0⟩; exact hl b hb h0)]
  simp only
  unfold solve
  split
  · next w hw =>
    split
    · exact Or.inl ⟨_, rfl⟩
    · next e he =>
      split at he
      · cases he; exact Or.inr rfl
      · cases he
    · next he => split at he <;> cases he
  · next e he =>
    split at he
    · cases he; exact Or.inr rfl
    · cases he
  · next he => split at he <;> cases he

theorem multipliersOf_nil (L : Law) (h : ℝ) : multipliersOf L h [] = .fail .runtimeError := by
  have hk : (systemOf L h []).k = 0 := by
    obtain ⟨s1, _⟩ := systemOf_spec L h []
    have h0 : gram [] = 0 := rfl
    have ho : ∀ i, ¬ Out (gram []) i := by
      rintro i ⟨h1, _⟩
      apply h1
      rw [traceOf_eq, h0]
      simp
    ext a b
    rw [s1, if_neg (by simp [ho]), h0]
  unfold multipliersOf
  rw [if_neg (by simp)]
  simp only [hk]
  rw [solve, if_pos (by simp)]

theorem multipliersLoop_fail {L : Law} {C : Config} {bonds : List Bond} (hl : ∀ b ∈ bonds, len (xi C b) ≠ 0) {p : Nat}
    (hp : (bonds.filter fun b => b.i = p) = []) (ps : List Nat) (hmem : p ∈ ps) (S : Setup) :
    multipliersLoop L C bonds ps S = .fail .runtimeError := by
  induction ps generalizing S with
  | nil => cases hmem
  | cons q ps ih =>
    rw [multipliersLoop]
    by_cases hq : p = q
    · subst hq
      rw [hp, List.map_nil, multipliersOf_nil]
    · have hmem : p ∈ ps := (List.mem_cons.1 hmem).resolve_left hq
      rcases multipliersOf_cases (L := L) (h := C.horizon)
          (bs := (bonds.filter fun b => b.i = q).map fun b => (xi C b, C.v b.j)) (by
            intro b hb
            obtain ⟨c, hc, rfl⟩ := List.mem_map.1 hb
            exact hl c (List.mem_filter.1 hc).1) with ⟨⟨w, t⟩, hr⟩ | hr
      · rw [hr]
        exact ih hmem _
      · rw [hr]

/-- C132, isolated points: a single point without neighbors makes the set-up of the whole block fail with an exception. -/
theorem C132_isolated (L : Law) {C : Config} {nbs : List (List Nat)} (hx : ∀ b ∈ bondsOf nbs, C.x b.j ≠ C.x b.i) {p : Nat}
    (hp : nbs[p]? = some []) (S : Setup) : prepare L C nbs.length (encode nbs) S = .fail .runtimeError := by
  have hlt := (List.getElem?_eq_some_iff.1 hp).1
  obtain ⟨a, ha⟩ := first_read (nbs := nbs) (by rintro rfl; cases hp)
  have hb : bondsAt nbs p = [] := by
    rw [bondsAt, filter_bondsOf nbs hp]
    rfl
  rw [prepare, ha, visited_encode]
  simp only
  rw [multipliersLoop_fail (fun b hb h0 => hx b hb (sub_eq_zero.1 (len_eq_zero.1 h0))) hb _ (List.mem_range.2 hlt)]

/-- C132, processors without points: the set-up reads beyond the end of the neighborhood list. -/
theorem C132_none (L : Law) (C : Config) (S : Setup) : prepare L C 0 (encode []) S = .ub := rfl

/-- One point with six neighbors: along the axes and the face diagonals. -/
def star : Config where
  x := fun k => if k = 1 then ![1, 0, 0] else if k = 2 then ![0, 1, 0] else if k = 3 then ![0, 0, 1]
    else if k = 4 then ![1, 1, 0] else if k = 5 then ![1, 0, 1] else if k = 6 then ![0, 1, 1] else 0
  y := fun k => if k = 1 then ![2, 0, 0] else if k = 2 then ![0, 1, 0] else if k = 3 then ![0, 0, 1]
    else if k = 4 then ![1, 1, 0] else if k = 5 then ![1, 0, 1] else if k = 6 then ![0, 1, 1] else 0
  v := fun _ => 1
  m := fun _ => 0
  damage := fun _ => 0
  omega := fun _ _ => 1
  horizon := 2
  thermal := none

/-- The neighborhood of the case: the neighbors belong to other processors. -/
def starNbs : List (List Nat) := [[1, 2, 3, 4, 5, 6]]

theorem star_bonds : bondsOf starNbs = [⟨0, 1, 0⟩, ⟨0, 2, 1⟩, ⟨0, 3, 2⟩, ⟨0, 4, 3⟩, ⟨0, 5, 4⟩, ⟨0, 6, 5⟩] := by
  simp [bondsOf, bondsFrom, starNbs, pointBonds]

theorem star_at : bondsAt starNbs 0 = [⟨0, 1, 0⟩, ⟨0, 2, 1⟩, ⟨0, 3, 2⟩, ⟨0, 4, 3⟩, ⟨0, 5, 4⟩, ⟨0, 6, 5⟩] := by
  rw [bondsAt, star_bonds]
  rfl

theorem star_sees (i : Fin 6) : Sees star starNbs 0 i := by
  have hs : ∀ i, share star starNbs 0 i = (![3, 3, 3, 4, 4, 4] : Fin 6 → ℝ) i := by
    intro i
    unfold share
    rw [star_at]
    fin_cases i <;>
      simp [star, quad, unitStrain, Matrix.mulVec, dotProduct, Fin.sum_univ_three] <;> norm_num
  unfold Sees
  simp only [hs]
  fin_cases i <;> simp [Fin.sum_univ_succ] <;> norm_num

theorem star_apart : ∀ b ∈ bondsOf starNbs, star.x b.j ≠ star.x b.i ∧ star.y b.j ≠ star.y b.i := by
  rw [star_bonds]
  intro b hb
  fin_cases hb <;> (constructor <;> (intro h; have h0 := congrFun h 0; have h1 := congrFun h 1; have h2 := congrFun h 2; simp [star] at h0 h1 h2))

theorem star_determined : ∀ p < starNbs.length, Determined star starNbs p := by
  intro p hp
  have : p = 0 := by simpa [starNbs] using hp
  subst this
  constructor
  · intro w _ h
    rw [star_at] at h
    simp only [List.forall_mem_cons, List.not_mem_nil, false_implies, implies_true, and_true] at h
    simp [star, quad, unitStrain, Matrix.mulVec, dotProduct, Fin.sum_univ_succ] at h
    obtain ⟨h0, h1, h2, h3, h4, h5⟩ := h
    rw [h0, h1] at h3
    rw [h0, h2] at h4
    rw [h1, h2] at h5
    funext i
    fin_cases i
    · exact h0
    · exact h1
    · exact h2
    · change w 3 = 0; norm_num at h3; exact h3
    · change w 4 = 0; norm_num at h4; exact h4
    · change w 5 = 0; norm_num at h5; exact h5
  · intro w _ h
    rw [star_at] at h
    simp only [List.forall_mem_cons, List.not_mem_nil, false_implies, implies_true, and_true] at h
    simp [star, quad, deviator, unitStrain, Matrix.mulVec, dotProduct, Fin.sum_univ_succ, Matrix.trace, Matrix.one_apply] at h
    obtain ⟨h0, h1, h2, h3, h4, h5⟩ := h
    have e0 : w 0 = 0 := by linarith
    have e1 : w 1 = 0 := by linarith
    have e2 : w 2 = 0 := by linarith
    have e3 : w 3 = 0 := by rw [e0, e1, e2] at h3; linarith
    have e4 : w 4 = 0 := by rw [e0, e1, e2] at h4; linarith
    have e5 : w 5 = 0 := by rw [e0, e1, e2] at h5; linarith
    funext i
    fin_cases i
    exacts [e0, e1, e2, e3, e4, e5]

/-- The case is set up, for all laws, and its bonds see all matching strains. -/
theorem star_setUp (L : Law) : ∃ S, SetUp L star starNbs S :=
  C132_defined L (by simp [starNbs]) (fun _ _ => one_pos) (fun b hb => (star_apart b hb).1) star_determined

/-- Near the reference configuration the material can be evaluated. -/
theorem strained_defined {L : Law} {C : Config} (S : Setup) {nbs : List (List Nat)} (E : Matrix (Fin 3) (Fin 3) ℝ)
    (hx : ∀ b ∈ bondsOf nbs, C.x b.j ≠ C.x b.i) :
    ∀ᶠ s in 𝓝 0, ∀ th U0, ∃ theta F U, material L (strained C E s) S nbs.length (encode nbs) th = .ok (theta, F) ∧
      storedEnergy L (strained C E s) S theta nbs.length (encode nbs) U0 = .ok U := by
  have h : ∀ l : List Bond, (∀ b ∈ l, C.x b.j ≠ C.x b.i) →
      ∀ᶠ s in 𝓝 (0 : ℝ), ∀ b ∈ l, (strained C E s).y b.j ≠ (strained C E s).y b.i := by
    intro l hl
    induction l with
    | nil => simp
    | cons b l ih =>
      have h1 := ih fun c hc => hl c (List.mem_cons_of_mem _ hc)
      have hc : Filter.Tendsto (fun s : ℝ => (strained C E s).y b.j - (strained C E s).y b.i) (𝓝 0) (𝓝 (C.x b.j - C.x b.i)) := by
        have : Continuous fun s : ℝ => (strained C E s).y b.j - (strained C E s).y b.i := by
          unfold strained
          simp only
          fun_prop
        have := this.tendsto 0
        simpa [strained] using this
      have h2 := hc.eventually_ne (sub_ne_zero.2 (hl b List.mem_cons_self))
      filter_upwards [h1, h2] with s hs1 hs2 c hc
      rcases List.mem_cons.1 hc with rfl | hc
      · exact sub_ne_zero.1 hs2
      · exact hs1 c hc
  filter_upwards [h _ hx] with s hs th U0
  obtain ⟨theta, F, h1⟩ := material_defined (L := L) (C := strained C E s) S th hx hs
  obtain ⟨U, h2⟩ := storedEnergy_defined (L := L) (C := strained C E s) S theta U0 hx
  exact ⟨theta, F, U, h1, h2⟩

/-- The case meets the hypotheses of `C132_dilatation` and `C132_energy`. -/
example (L : Law) (E : Matrix (Fin 3) (Fin 3) ℝ) : ∃ S, SetUp L star starNbs S ∧ (∀ i, Sees star starNbs 0 i ∨ entry E i = 0) ∧
    ∀ᶠ s in 𝓝 0, ∀ th U0, ∃ theta F U, material L (strained star E s) S starNbs.length (encode starNbs) th = .ok (theta, F) ∧
      storedEnergy L (strained star E s) S theta starNbs.length (encode starNbs) U0 = .ok U := by
  obtain ⟨S, hS⟩ := star_setUp L
  exact ⟨S, hS, fun i => Or.inl (star_sees i), strained_defined S E fun b hb => (star_apart b hb).1⟩

/-- Two bonded points and a third one without neighbors. -/
example : (∀ b ∈ bondsOf [[1], [0], []], row.x b.j ≠ row.x b.i) ∧ ([[1], [0], []] : List (List Nat))[2]? = some [] := by
  refine ⟨?_, rfl⟩
  intro b hb
  have : bondsOf [[1], [0], []] = [⟨0, 1, 0⟩, ⟨1, 0, 1⟩] := by simp [bondsOf, bondsFrom, pointBonds]
  rw [this] at hb
  fin_cases hb <;> (intro h; have h0 := congrFun h 0; simp [row] at h0)

/-! ### C133: forces -/

/-- C133: the internal forces sum to zero. -/
theorem C133_force {L : Law} {C : Config} {S : Setup} {nbs : List (List Nat)} {th theta : Nat → ℝ} {F : Nat → V3} {N : Nat}
    (hN : Within nbs N) (h : material L C S nbs.length (encode nbs) th = .ok (theta, F)) : totalForce C.v F N = 0 :=
  force_of_scattered (material_parts h).2.2 (bonds_within hN)

/-- C133: the internal forces have no moment. -/
theorem C133_moment {L : Law} {C : Config} {S : Setup} {nbs : List (List Nat)} {th theta : Nat → ℝ} {F : Nat → V3} {N : Nat}
    (hN : Within nbs N) (h : material L C S nbs.length (encode nbs) th = .ok (theta, F)) : totalMoment C.y C.v F N = 0 :=
  moment_of_scattered ((material_parts h).2.2.mono fun _ _ _ hg => along_central hg) (bonds_within hN)

/-- C133: a superposed rigid motion rotates the forces and leaves the dilatation. -/
theorem C133_frame (L : Law) (C : Config) (S : Setup) (Q : Matrix (Fin 3) (Fin 3) ℝ) (hQ : Qᵀ * Q = 1) (c : V3) (n : Nat)
    (l : List Nat) (th : Nat → ℝ) :
    material L { C with y := moved Q c C.y } S n l th =
      (material L C S n l th).map fun r => (r.1, fun k => Q *ᵥ r.2 k) := by
  change material L (C.move Q c) S n l th = _
  unfold material
  cases visitedBonds n l with
  | ok bonds =>
    have hz : ∀ b, (C.move Q c).zeta b = C.zeta b := fun _ => rfl
    have he : ∀ b, elong (C.move Q c) b = elong C b := fun b => by unfold elong; rw [move_dY hQ, hz]
    have hd : dilatationOf L (C.move Q c) S bonds n th = dilatationOf L C S bonds n th := by
      unfold dilatationOf
      simp only [he]
      rfl
    have hpr : ∀ t, pressureOf L (C.move Q c) S t bonds = pressureOf L C S t bonds := by
      intro t
      funext p
      unfold pressureOf
      simp only [he]
      rfl
    simp only [hz, hd, hpr]
    split
    · rfl
    · have := scatter_rot (Q := Q) (selfVol C) (nbrVol C)
        (pairForce L C S (dilatationOf L C S bonds n th) (pressureOf L C S (dilatationOf L C S bonds n th) bonds))
        (pairForce L (C.move Q c) S (dilatationOf L C S bonds n th) (pressureOf L C S (dilatationOf L C S bonds n th) bonds))
        (fun b => by
          unfold pairForce
          simp only
          rw [move_along hQ, he]
          rfl) bonds 0
      rw [rot_zero] at this
      have hsv : scatter (selfVol (C.move Q c)) (nbrVol (C.move Q c)) = scatter (selfVol C) (nbrVol C) := rfl
      rw [hsv, this]
      cases scatter (selfVol C) (nbrVol C)
        (pairForce L C S (dilatationOf L C S bonds n th) (pressureOf L C S (dilatationOf L C S bonds n th) bonds)) bonds 0 <;> rfl
  | fail e => rfl
  | ub => rfl

/-- C133: a body that is moved rigidly from its reference configuration has no internal force, no dilatation and no energy. -/
theorem C133_rigid (L : Law) (C : Config) (S : Setup) (Q : Matrix (Fin 3) (Fin 3) ℝ) (hQ : Qᵀ * Q = 1) (c : V3)
    (hy : C.y = moved Q c C.x) (nbs : List (List Nat)) (hx : ∀ b ∈ bondsOf nbs, C.x b.j ≠ C.x b.i) (th U0 : Nat → ℝ) :
    ∃ theta U, material L C S nbs.length (encode nbs) th = .ok (theta, 0) ∧
      storedEnergy L C S theta nbs.length (encode nbs) U0 = .ok U ∧ ∀ p < nbs.length, theta p = 0 ∧ U p = 0 := by
  have he : ∀ b, elong C b = 0 := fun b => by unfold elong; rw [rigid_dY hQ hy, sub_self]
  have hyb : ∀ b ∈ bondsOf nbs, C.y b.j ≠ C.y b.i := by
    intro b hb h
    have h1 : C.dY b = 0 := by unfold Config.dY Config.yd; rw [h, sub_self]; exact len_eq_zero.2 rfl
    rw [rigid_dY hQ hy] at h1
    exact hx b hb (sub_eq_zero.1 (len_eq_zero.1 h1))
  obtain ⟨theta, F, h1⟩ := material_defined (L := L) S th hx hyb
  obtain ⟨U, h2⟩ := storedEnergy_defined (L := L) S theta U0 hx
  obtain ⟨p1, _, p3⟩ := material_parts h1
  have ht : ∀ p < nbs.length, theta p = 0 := by
    intro p hp
    rw [p1 p hp]
    unfold thetaAt
    simp [he]
  have hF : F = 0 := by
    have hz : Scattered (selfVol C) (nbrVol C) (fun _ g => g = 0) (bondsOf nbs) 0 F := by
      refine p3.mono fun b hb g hg => ?_
      obtain ⟨_, hg⟩ := along_eq hg
      obtain ⟨ns, hn, _⟩ := mem_bondsOf hb
      have hi := ht _ (List.getElem?_eq_some_iff.1 hn).1
      rw [hg]
      unfold pull pressAt
      simp [he, hi]
    obtain ⟨gs, _, g2, g3⟩ := hz
    funext k
    rw [g3 k, pull_zero_of (fun x hx => Or.inl (g2 x hx))]
    simp
  subst hF
  refine ⟨theta, U, h1, h2, fun p hp => ⟨ht p hp, ?_⟩⟩
  rw [storedEnergy_eq h2 hp]
  unfold pointEnergy
  simp [he, ht p hp]

/-- C133: along every displacement of the points the stored energy changes at the rate at which work is done against the internal
forces, exactly. -/
theorem C133_gradient {L : Law} {C : Config} {S : Setup} {nbs : List (List Nat)} {th theta : Nat → ℝ} {F : Nat → V3}
    (hS : SetUp L C nbs S) (h : material L C S nbs.length (encode nbs) th = .ok (theta, F)) (d : Nat → V3) {N : Nat}
    (hN : Within nbs N) {E : ℝ → ℝ} (hE : ∀ᶠ s in 𝓝 0, EnergyIs L (shifted C d s) S nbs (E s)) :
    HasDerivAt E (-power C F d N) 0 := by
  obtain ⟨S0, hS⟩ := hS
  refine (energy_deriv h (fun p hp => (prepare_spec hS hp).2.2.2) d hN).congr_of_eventuallyEq ?_
  filter_upwards [hE] with s hs
  exact energyIs_eq hs

theorem prepare_other (L : Law) (C : Config) (y : Nat → V3) (dam : Nat → ℝ) (n : Nat) (l : List Nat) (S : Setup) :
    prepare L { C with y := y, damage := dam } n l S = prepare L C n l S := by
  have h : ∀ bonds ps S, multipliersLoop L { C with y := y, damage := dam } bonds ps S = multipliersLoop L C bonds ps S := by
    intro bonds ps
    induction ps with
    | nil => intro S; rfl
    | cons p ps ih =>
      intro S
      rw [multipliersLoop, multipliersLoop]
      simp only [ih]
      rfl
  unfold prepare
  simp only [h]
  rfl

/-- The set-up does not look at the deformed positions, so that it serves for the whole computation. -/
theorem setUp_y {L : Law} {C : Config} {nbs : List (List Nat)} {S : Setup} (h : SetUp L C nbs S) (y : Nat → V3) :
    SetUp L { C with y := y } nbs S := by
  obtain ⟨S0, h⟩ := h
  exact ⟨S0, (prepare_other L C y C.damage _ _ S0).trans h⟩

/-- A case for C133. -/
example (L : Law) : Within starNbs 7 ∧ ∃ S theta F, SetUp L star starNbs S ∧
    material L star S starNbs.length (encode starNbs) 0 = .ok (theta, F) ∧
    EnergyIs L (shifted star 0 0) S starNbs (∑ p ∈ Finset.range starNbs.length,
      pointEnergy L star S starNbs (thetaAt L star S starNbs) p) := by
  refine ⟨⟨by decide, by simp [starNbs]⟩, ?_⟩
  obtain ⟨S, hS⟩ := star_setUp L
  obtain ⟨theta, F, h⟩ := material_defined (L := L) (C := star) S (nbs := starNbs) 0 (fun b hb => (star_apart b hb).1)
    (fun b hb => (star_apart b hb).2)
  obtain ⟨U, hU⟩ := storedEnergy_defined (L := L) (C := star) S (nbs := starNbs) theta 0 (fun b hb => (star_apart b hb).1)
  refine ⟨S, theta, F, hS, h, ?_⟩
  have e : shifted star 0 0 = star := by unfold shifted; simp
  rw [e]
  have : EnergyIs L star S starNbs (∑ p ∈ Finset.range starNbs.length, U p) := ⟨0, theta, F, 0, U, h, hU, rfl⟩
  rwa [energyIs_eq this] at this

/-- The case, moved. -/
example : ∃ C : Config, C.y = moved 1 ![1, 2, 3] C.x ∧ (1 : Matrix (Fin 3) (Fin 3) ℝ)ᵀ * 1 = 1 ∧
    ∀ b ∈ bondsOf starNbs, C.x b.j ≠ C.x b.i :=
  ⟨{ star with y := moved 1 ![1, 2, 3] star.x }, rfl, by simp, fun b hb => (star_apart b hb).1⟩

/-! ### C134: damage -/

/-- C134: set-up, forces and stored energy are the same whatever the damage of the bonds. -/
theorem C134_ignored (L : Law) (C : Config) (dam : Nat → ℝ) (n : Nat) (l : List Nat) (S0 S : Setup) (th theta U0 : Nat → ℝ) :
    prepare L { C with damage := dam } n l S0 = prepare L C n l S0 ∧
      material L { C with damage := dam } S n l th = material L C S n l th ∧
      storedEnergy L { C with damage := dam } S theta n l U0 = storedEnergy L C S theta n l U0 :=
  ⟨prepare_other L C C.y dam n l S0, rfl, rfl⟩

/-- Two points whose bond is broken, on both sides, and twice as long as it was. -/
def torn : Config where
  x := fun k => if k = 1 then ![1, 0, 0] else 0
  y := fun k => if k = 1 then ![2, 0, 0] else 0
  v := fun _ => 1
  m := fun _ => 0
  damage := fun _ => 1
  omega := fun _ _ => 1
  horizon := 2
  thermal := none

/-- The neighborhoods of the case. -/
def tornNbs : List (List Nat) := [[1], [0]]

theorem torn_bonds : bondsOf tornNbs = [⟨0, 1, 0⟩, ⟨1, 0, 1⟩] := by
  simp [bondsOf, bondsFrom, tornNbs, pointBonds]

theorem torn_at : bondsAt tornNbs 0 = [⟨0, 1, 0⟩] ∧ bondsAt tornNbs 1 = [⟨1, 0, 1⟩] := by
  rw [bondsAt, bondsAt, torn_bonds]
  exact ⟨rfl, rfl⟩

theorem torn_share {p : Nat} (hp : p < tornNbs.length) (i : Fin 6) :
    share torn tornNbs p i = (![1, 0, 0, 0, 0, 0] : Fin 6 → ℝ) i := by
  have : p = 0 ∨ p = 1 := by simp [tornNbs] at hp; omega
  rcases this with rfl | rfl
  · unfold share
    rw [torn_at.1]
    fin_cases i <;> simp [torn, quad, unitStrain, Matrix.mulVec, dotProduct, Fin.sum_univ_three]
  · unfold share
    rw [torn_at.2]
    fin_cases i <;> simp [torn, quad, unitStrain, Matrix.mulVec, dotProduct, Fin.sum_univ_three]

theorem torn_sees {p : Nat} (hp : p < tornNbs.length) (i : Fin 6) : Sees torn tornNbs p i ↔ i = 0 := by
  unfold Sees
  simp only [torn_share hp]
  fin_cases i <;> simp [Fin.sum_univ_succ] <;> norm_num

theorem torn_apart : ∀ b ∈ bondsOf tornNbs, torn.x b.j ≠ torn.x b.i ∧ torn.y b.j ≠ torn.y b.i := by
  rw [torn_bonds]
  intro b hb
  fin_cases hb <;> (constructor <;> (intro h; have h0 := congrFun h 0; simp [torn] at h0))

theorem torn_determined : ∀ p < tornNbs.length, Determined torn tornNbs p := by
  intro p hp
  have hp' : p = 0 ∨ p = 1 := by simp [tornNbs] at hp; omega
  have hw0 : ∀ w : Fin 6 → ℝ, (∀ i, ¬ Sees torn tornNbs p i → w i = 0) → w 0 = 0 → w = 0 := by
    intro w hw h0
    funext i
    by_cases hi : i = 0
    · rw [hi, h0]; rfl
    · exact hw i (by rw [torn_sees hp]; exact hi)
  have hz : ∀ w : Fin 6 → ℝ, (∀ i, ¬ Sees torn tornNbs p i → w i = 0) → ∀ f : Fin 6 → ℝ, ∑ i, w i * f i = w 0 * f 0 := by
    intro w hw f
    rw [Finset.sum_eq_single 0]
    · intro i _ hi
      rw [hw i (by rw [torn_sees hp]; exact hi), zero_mul]
    · intro h
      exact absurd (Finset.mem_univ 0) h
  constructor
  · intro w hw h
    apply hw0 w hw
    simp only [hz w hw] at h
    rcases hp' with rfl | rfl
    · have := h ⟨0, 1, 0⟩ (by rw [torn_at.1]; simp)
      simpa [torn, quad, unitStrain, Matrix.mulVec, dotProduct, Fin.sum_univ_three] using this
    · have := h ⟨1, 0, 1⟩ (by rw [torn_at.2]; simp)
      simpa [torn, quad, unitStrain, Matrix.mulVec, dotProduct, Fin.sum_univ_three] using this
  · intro w hw h
    apply hw0 w hw
    simp only [hz w hw] at h
    rcases hp' with rfl | rfl
    · have := h ⟨0, 1, 0⟩ (by rw [torn_at.1]; simp)
      simp [torn, quad, deviator, unitStrain, Matrix.mulVec, dotProduct, Fin.sum_univ_three, Matrix.trace, Matrix.one_apply] at this
      rcases this with h | h
      · exact h
      · norm_num at h
    · have := h ⟨1, 0, 1⟩ (by rw [torn_at.2]; simp)
      simp [torn, quad, deviator, unitStrain, Matrix.mulVec, dotProduct, Fin.sum_univ_three, Matrix.trace, Matrix.one_apply] at this
      rcases this with h | h
      · exact h
      · norm_num at h

/-- C134: so a body all of whose bonds are broken resists: here two points with bulk modulus one and no shear modulus pull at
each other with force density 2, whatever the influence functions. -/
theorem C134_broken (w0 s0 : ℝ → ℝ → ℝ) : (∀ b, torn.damage b = 1) ∧ ∃ S theta F,
    SetUp ⟨1, 0, w0, s0⟩ torn tornNbs S ∧ material ⟨1, 0, w0, s0⟩ torn S tornNbs.length (encode tornNbs) 0 = .ok (theta, F) ∧
      F 0 = ![2, 0, 0] := by
  refine ⟨fun _ => rfl, ?_⟩
  obtain ⟨S, hS⟩ := C132_defined ⟨1, 0, w0, s0⟩ (C := torn) (nbs := tornNbs) (by simp [tornNbs]) (fun _ _ => one_pos)
    (fun b hb => (torn_apart b hb).1) torn_determined
  obtain ⟨theta, F, h⟩ := material_defined (L := ⟨1, 0, w0, s0⟩) (C := torn) S (nbs := tornNbs) 0
    (fun b hb => (torn_apart b hb).1) (fun b hb => (torn_apart b hb).2)
  refine ⟨S, theta, F, hS, h, ?_⟩
  have m0 := (setUp_match hS (p := 0) (by decide) (fun _ _ => zero_le_one) ((torn_sees (by decide) 0).2 rfl)).1
  have m1 := (setUp_match hS (p := 1) (by decide) (fun _ _ => zero_le_one) ((torn_sees (by decide) 0).2 rfl)).1
  rw [torn_at.1] at m0
  rw [torn_at.2] at m1
  have q0 : quad (unitStrain 0) (xi torn ⟨0, 1, 0⟩) = 1 := by
    simp [xi, torn, quad, unitStrain, Matrix.mulVec, dotProduct, Fin.sum_univ_three]
  have q1 : quad (unitStrain 0) (xi torn ⟨1, 0, 1⟩) = 1 := by
    simp [xi, torn, quad, unitStrain, Matrix.mulVec, dotProduct, Fin.sum_univ_three]
  simp only [List.map_cons, List.map_nil, List.sum_cons, List.sum_nil, q0, q1, trace_unit] at m0 m1
  have v1 : ∀ k, torn.v k = 1 := fun _ => rfl
  simp only [v1, mul_one, add_zero, Matrix.cons_val_zero] at m0 m1
  have z0 : torn.zeta ⟨0, 1, 0⟩ = 1 := by simp [Config.zeta, torn, len_x]
  have z1 : torn.zeta ⟨1, 0, 1⟩ = 1 := by simp [Config.zeta, torn, len]
  have y0 : torn.dY ⟨0, 1, 0⟩ = 2 := by simp [Config.dY, Config.yd, torn, len_x]
  have y1 : torn.dY ⟨1, 0, 1⟩ = 2 := by
    simp [Config.dY, Config.yd, torn, len]
  have e0 : elong torn ⟨0, 1, 0⟩ = 1 := by unfold elong; rw [z0, y0]; norm_num
  have e1 : elong torn ⟨1, 0, 1⟩ = 1 := by unfold elong; rw [z1, y1]; norm_num
  obtain ⟨p1, _, gs, g1, g2, g3⟩ := material_parts h
  have t0 : theta 0 = 1 := by
    rw [p1 0 (by decide), thetaAt, torn_at.1]
    simp [m0, z0, e0, v1]
  have t1 : theta 1 = 1 := by
    rw [p1 1 (by decide), thetaAt, torn_at.2]
    simp [m1, z1, e1, v1]
  rw [torn_bonds] at g1
  match gs, g1, g2, g3 with
  | [(b0, f0), (b1, f1)], g1, g2, g3 =>
    simp only [List.map_cons, List.map_nil, List.cons.injEq, and_true] at g1
    obtain ⟨rfl, rfl⟩ := g1
    have f0e := (along_eq (g2 _ List.mem_cons_self)).2
    have f1e := (along_eq (g2 _ (List.mem_cons_of_mem _ List.mem_cons_self))).2
    simp only [pull, pressAt, m0, m1, z0, z1, t0, t1, y0, y1] at f0e f1e
    rw [g3 0]
    simp only [List.map_cons, List.map_nil, List.sum_cons, List.sum_nil, Mech.pull]
    rw [f0e, f1e]
    funext c
    fin_cases c <;> simp [Config.yd, torn, selfVol, nbrVol] <;> norm_num

end Verif.Pals
