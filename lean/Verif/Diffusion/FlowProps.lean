import Verif.Diffusion.Lemmas
import Verif.Mech.Props
import Verif.Energy.Props

/-! Property theorems for fluid flow, pore pressure and the Poisson material: C106 to C109. -/

noncomputable section

namespace Verif.Diffusion

open Verif Verif.Neigh Verif.Mech Verif.Energy
open scoped Classical

/-! ### C106: fluid is conserved and flows from high to low pressure -/

/-- **C106**, conservation: for all neighborhoods, what leaves some points enters others. -/
theorem C106_mass (C : Config) (P : Fluid) (nbs : List (List Nat)) (pr Q : Nat → ℝ) (N : Nat)
    (hN : Within nbs N) (hQ : fluidFlow C P pr nbs.length (encode nbs) = .ok Q) :
    total C.v Q N = 0 := by
  obtain ⟨q, _, h2⟩ := flow_eq hQ
  unfold total
  simp only [h2]
  exact flow_total N _ q (bonds_within hN)

/-- **C106**, rest: if bonded points have the same pressure there is no flow. -/
theorem C106_rest (C : Config) (P : Fluid) (nbs : List (List Nat)) (pr Q : Nat → ℝ)
    (hQ : fluidFlow C P pr nbs.length (encode nbs) = .ok Q)
    (hp : ∀ p j, HasBond nbs p j → pr j = pr p) (k : Nat) : Q k = 0 := by
  obtain ⟨q, h1, h2⟩ := flow_eq hQ
  rw [h2 k]
  apply List.sum_eq_zero
  intro x hx
  obtain ⟨b, hb, rfl⟩ := List.mem_map.1 hx
  have := bondFlow_eq (h1 b hb)
  rw [hp _ _ (mem_bondsOf hb), sub_self, mul_zero] at this
  simp [flowPull, this]

/-- **C106**, direction: a point whose pressure is not less than that of any point bonded to it gains no
fluid. -/
theorem C106_high (C : Config) (P : Fluid) (nbs : List (List Nat)) (pr Q : Nat → ℝ) (k : Nat)
    (hP : P.Physical) (hv : ∀ p, 0 ≤ C.v p)
    (hQ : fluidFlow C P pr nbs.length (encode nbs) = .ok Q)
    (hp : ∀ j, HasBond nbs k j ∨ HasBond nbs j k → pr j ≤ pr k) : Q k ≤ 0 := by
  obtain ⟨q, h1, h2⟩ := flow_eq hQ
  rw [h2 k]
  apply sum_nonpos'
  intro x hx
  obtain ⟨b, hb, rfl⟩ := List.mem_map.1 hx
  have hq := bondFlow_eq (h1 b hb)
  have hc : 0 ≤ mobility C P b * effectivePermeability C P b :=
    mul_nonneg (mobility_nonneg hP b) (effective_nonneg hP b)
  have hbond := mem_bondsOf hb
  unfold flowPull
  simp only
  have e1 : (if b.i = k then q b * C.v b.j else 0) ≤ 0 := by
    split
    · next h =>
      subst h
      have := hp _ (Or.inl hbond)
      have : q b ≤ 0 := by rw [hq]; exact mul_nonpos_of_nonneg_of_nonpos hc (by linarith)
      exact mul_nonpos_of_nonpos_of_nonneg this (hv _)
    · exact le_refl _
  have e2 : 0 ≤ (if b.j = k then q b * C.v b.i else 0) := by
    split
    · next h =>
      subst h
      have := hp _ (Or.inr hbond)
      have : 0 ≤ q b := by rw [hq]; exact mul_nonneg hc (by linarith)
      exact mul_nonneg this (hv _)
    · exact le_refl _
  linarith

/-- **C106**, strictly: through a permeable medium a point loses fluid if one of the points bonded to it
has less pressure and none has more. -/
theorem C106_flows (C : Config) (P : Fluid) (nbs : List (List Nat)) (pr Q : Nat → ℝ) (k j : Nat)
    (hP : P.Physical) (hperm : 0 < P.permeability) (hv : ∀ p, 0 < C.v p)
    (hQ : fluidFlow C P pr nbs.length (encode nbs) = .ok Q)
    (hp : ∀ j, HasBond nbs k j ∨ HasBond nbs j k → pr j ≤ pr k)
    (hj : HasBond nbs k j) (hlt : pr j < pr k) : Q k < 0 := by
  obtain ⟨q, h1, h2⟩ := flow_eq hQ
  rw [h2 k]
  have pull : ∀ b ∈ bondsOf nbs, (if b.j = k then q b * C.v b.i else 0) ≥ 0 ∧
      (if b.i = k then q b * C.v b.j else 0) ≤ 0 := by
    intro b hb
    have hq := bondFlow_eq (h1 b hb)
    have hc : 0 ≤ mobility C P b * effectivePermeability C P b :=
      mul_nonneg (mobility_nonneg hP b) (effective_nonneg hP b)
    have hbond := mem_bondsOf hb
    constructor
    · split
      · next h =>
        subst h
        have := hp _ (Or.inr hbond)
        have : 0 ≤ q b := by rw [hq]; exact mul_nonneg hc (by linarith)
        exact mul_nonneg this (hv _).le
      · exact le_refl _
    · split
      · next h =>
        subst h
        have := hp _ (Or.inl hbond)
        have : q b ≤ 0 := by rw [hq]; exact mul_nonpos_of_nonneg_of_nonpos hc (by linarith)
        exact mul_nonpos_of_nonpos_of_nonneg this (hv _).le
      · exact le_refl _
  obtain ⟨b, hb, rfl, rfl⟩ := bond_of_has hj
  refine sum_neg' (a := flowPull C b.i (b, q b)) ?_ (List.mem_map_of_mem (f := fun b' => flowPull C b.i (b', q b')) hb) ?_
  · intro x hx
    obtain ⟨c, hc, rfl⟩ := List.mem_map.1 hx
    have := pull c hc
    unfold flowPull
    simp only
    linarith [this.1, this.2]
  · have hpull := (pull b hb).1
    unfold flowPull
    simp only
    rw [if_pos trivial]
    have hf := h1 b hb
    have hq := bondFlow_eq hf
    unfold bondFlow at hf
    split at hf
    · cases hf
    · split at hf
      · cases hf
      · next hh =>
        split at hf
        · cases hf
        · next hd =>
          have e1 : 0 < mobility C P b := by
            refine lt_of_le_of_ne (mobility_nonneg hP b) fun e => ?_
            unfold mobility at e
            have := hP.density.ne'
            have := (viscosityAt_pos (C := C) hP b.i).ne'
            have := pow_ne_zero 4 hd
            have : P.density / viscosityAt C P b.i * (4 / (Real.pi * C.horizon * C.horizon)) /
              C.dY b ^ 4 ≠ 0 := by positivity
            exact this e.symm
          have e2 : 0 < effectivePermeability C P b := by
            rw [effective_eq]
            obtain ⟨s1, s2⟩ := share_pos P (C.damage b.b)
            have h4 := hP.maxPermeability
            have h5 : 0 < 1 - share P (C.damage b.b) := by linarith
            have h6 : 0 < C.dY b ^ 2 := by positivity
            positivity
          have : q b < 0 := by
            rw [hq]
            exact mul_neg_of_pos_of_neg (mul_pos e1 e2) (by linarith)
          have := mul_neg_of_neg_of_pos this (hv b.j)
          linarith

/-- **C106**, defined: for a physical fluid, a horizon other than zero and bonded points apart, the flow
can be computed. -/
theorem C106_defined (C : Config) (P : Fluid) (nbs : List (List Nat)) (pr : Nat → ℝ) (hP : P.Physical)
    (hh : C.horizon ≠ 0) (ha : ∀ p j, HasBond nbs p j → C.y j ≠ C.y p) :
    ∃ Q, fluidFlow C P pr nbs.length (encode nbs) = .ok Q := fluid_ok hP hh ha pr

/-- **C106**, size: the flow is proportional to the density of the fluid and to the pressure differences, and
inversely proportional to its viscosity, which grows by the factor `exp (reynolds * dT)` at a point whose
temperature changes by `dT`. -/
theorem C106_scale (C : Config) (P : Fluid) (nbs : List (List Nat)) (pr Q : Nat → ℝ)
    (a c s p0 alpha dT : ℝ) (hc : c ≠ 0) (ht : C.thermal = none)
    (hQ : fluidFlow C P pr nbs.length (encode nbs) = .ok Q) :
    ∃ Q', fluidFlow { C with thermal := some (alpha, fun _ => dT) }
      { P with density := a * P.density, viscosity := c * P.viscosity }
      (fun k => p0 + s * pr k) nbs.length (encode nbs) = .ok Q' ∧
      ∀ k, Q' k * (c * Real.exp (P.reynolds * dT)) = a * s * Q k := by
  obtain ⟨q, h1, h2⟩ := flow_eq hQ
  have he := (Real.exp_pos (P.reynolds * dT)).ne'
  have key : ∀ b ∈ bondsOf nbs, bondFlow { C with thermal := some (alpha, fun _ => dT) }
      { P with density := a * P.density, viscosity := c * P.viscosity } (fun k => p0 + s * pr k) b =
      .ok (a * s * q b / (c * Real.exp (P.reynolds * dT))) := by
    intro b hb
    have h := h1 b hb
    have hy : Config.dY { C with thermal := some (alpha, fun _ => dT) } b = C.dY b := rfl
    have hef : effectivePermeability { C with thermal := some (alpha, fun _ => dT) }
      { P with density := a * P.density, viscosity := c * P.viscosity } b =
      effectivePermeability C P b := rfl
    unfold bondFlow at h ⊢
    have hmu : viscosityAt C P b.i = P.viscosity := by unfold viscosityAt; rw [ht]
    have hmu' : viscosityAt { C with thermal := some (alpha, fun _ => dT) }
      { P with density := a * P.density, viscosity := c * P.viscosity } b.i =
      c * P.viscosity * Real.exp (P.reynolds * dT) := rfl
    rw [hmu] at h
    rw [hmu', hy, hef]
    by_cases hv : P.viscosity = 0
    · rw [if_pos hv] at h; cases h
    · rw [if_neg hv] at h
      rw [if_neg (by positivity)]
      split at h
      · cases h
      · next hh =>
        rw [if_neg hh]
        split at h
        · cases h
        · next hd =>
          rw [if_neg hd]
          injection h with this
          rw [← this]
          congr 1
          field_simp
          ring
  obtain ⟨Q', hQ'⟩ : ∃ Q', fluidFlow { C with thermal := some (alpha, fun _ => dT) }
      { P with density := a * P.density, viscosity := c * P.viscosity } (fun k => p0 + s * pr k)
      nbs.length (encode nbs) = .ok Q' := by
    rw [fluidFlow, visited_encode, Outcome.ok_bind]
    exact flowLoop_ok _ fun b hb => ⟨_, key b hb⟩
  refine ⟨Q', hQ', fun k => ?_⟩
  obtain ⟨q', h1', h2'⟩ := flow_eq hQ'
  rw [h2' k, h2 k, ← List.sum_map_mul_left, ← List.sum_map_mul_right]
  congr 1
  apply List.map_congr_left
  intro b hb
  have e : q' b = a * s * q b / (c * Real.exp (P.reynolds * dT)) := by
    have := h1' b hb
    rw [key b hb] at this
    injection this with this
    exact this.symm
  have e' : q' b * (c * Real.exp (P.reynolds * dT)) = a * s * q b := by
    rw [e]; field_simp
  unfold flowPull
  simp only
  rw [sub_mul, mul_sub]
  congr 1
  · split
    · linear_combination C.v b.j * e'
    · simp
  · split
    · linear_combination C.v b.i * e'
    · simp

/-- Water in the body of three points. -/
def water (alpha : ℝ) : Fluid := ⟨1, 1, 1, 1 / 2, alpha, 10, 0⟩

theorem water_physical (alpha : ℝ) : (water alpha).Physical := by
  constructor <;> norm_num [water]

/-- Flow in the deformed body with a damaged bond, out of the point of highest pressure. -/
example : ∃ Q, fluidFlow demo (water 1) (fun k => k) 3 (encode demoNbs) = .ok Q ∧ Q 2 < 0 ∧
    total demo.v Q 3 = 0 := by
  obtain ⟨Q, hQ⟩ := C106_defined demo (water 1) demoNbs (fun k => k) (water_physical 1)
    (by norm_num [demo]) (fun p j h => (demo_proper p j h).2.1)
  refine ⟨Q, hQ, ?_, C106_mass _ _ _ _ _ _ demo_within hQ⟩
  refine C106_flows _ _ _ _ _ 2 1 (water_physical 1) (by norm_num [water])
    (fun p => by simp only [demo]; positivity) hQ ?_ ⟨[1], rfl, by simp⟩ (by norm_num)
  intro j hj
  have : j < 3 := by
    rcases hj with ⟨ns, hp, hj⟩ | ⟨ns, hp, hj⟩
    · exact demo_within.2 ns (List.mem_of_getElem? hp) j hj
    · exact (List.getElem?_eq_some_iff.1 hp).1
  have : j ≤ 2 := by omega
  exact_mod_cast this

/-! ### C107: damage and permeability -/

/-- With share of the limit larger, the flow into a point of lowest pressure is larger. -/
theorem flow_share {C : Config} {P : Fluid} {nbs : List (List Nat)} {pr Q Q' d' : Nat → ℝ} {k : Nat}
    (hP : P.Physical) (hv : ∀ p, 0 ≤ C.v p)
    (hmax : ∀ p j, HasBond nbs p j → P.permeability / 4 * len (C.y j - C.y p) ^ 2 ≤ P.maxPermeability)
    (hQ : fluidFlow C P pr nbs.length (encode nbs) = .ok Q)
    (hQ' : fluidFlow { C with damage := d' } P pr nbs.length (encode nbs) = .ok Q')
    (hp : ∀ j, HasBond nbs k j ∨ HasBond nbs j k → pr k ≤ pr j)
    (hs : ∀ b, share P (C.damage b) ≤ share P (d' b)) : Q k ≤ Q' k := by
  obtain ⟨q, h1, h2⟩ := flow_eq hQ
  obtain ⟨q', h1', h2'⟩ := flow_eq hQ'
  rw [h2 k, h2' k]
  have key : ∀ b ∈ bondsOf nbs, flowPull C k (b, q b) ≤ flowPull { C with damage := d' } k (b, q' b) := by
    intro b hb
    have hq := bondFlow_eq (h1 b hb)
    have hq' := bondFlow_eq (h1' b hb)
    have hm : mobility { C with damage := d' } P b = mobility C P b := rfl
    have hb' := mem_bondsOf hb
    have heff : effectivePermeability C P b ≤ effectivePermeability { C with damage := d' } P b := by
      rw [effective_eq, effective_eq]
      have hdy : Config.dY { C with damage := d' } b = C.dY b := rfl
      rw [hdy]
      have := hmax _ _ hb'
      have e : C.dY b = len (C.y b.j - C.y b.i) := rfl
      rw [← e] at this
      have := hs b.b
      simp only
      nlinarith
    have hm0 := mobility_nonneg (C := C) hP b
    have hd : mobility C P b * effectivePermeability C P b ≤
        mobility C P b * effectivePermeability { C with damage := d' } P b :=
      mul_le_mul_of_nonneg_left heff hm0
    unfold flowPull
    simp only
    have e1 : (if b.i = k then q b * C.v b.j else 0) ≤ (if b.i = k then q' b * C.v b.j else 0) := by
      split
      · next h =>
        subst h
        have h0 := hp _ (Or.inl hb')
        refine mul_le_mul_of_nonneg_right ?_ (hv _)
        rw [hq, hq', hm]
        exact mul_le_mul_of_nonneg_right hd (by linarith)
      · exact le_refl _
    have e2 : (if b.j = k then q' b * C.v b.i else 0) ≤ (if b.j = k then q b * C.v b.i else 0) := by
      split
      · next h =>
        subst h
        have h0 := hp _ (Or.inr hb')
        refine mul_le_mul_of_nonneg_right ?_ (hv _)
        rw [hq, hq', hm]
        exact mul_le_mul_of_nonpos_right hd (by linarith)
      · exact le_refl _
    linarith
  generalize bondsOf nbs = l at key
  induction l with
  | nil => simp
  | cons b l ih =>
    simp only [List.map_cons, List.sum_cons]
    have := key b List.mem_cons_self
    have := ih fun c hc => key c (List.mem_cons_of_mem _ hc)
    linarith

/-- **C107** for a permeability curve with `alpha ≤ 0`: if bonds are damaged further, more fluid flows
into a point of lowest pressure. -/
theorem C107_partial (C : Config) (P : Fluid) (nbs : List (List Nat)) (pr Q Q' d' : Nat → ℝ) (k : Nat)
    (hP : P.Physical) (hv : ∀ p, 0 ≤ C.v p) (ha : P.alpha ≤ 0)
    (hmax : ∀ p j, HasBond nbs p j → P.permeability / 4 * len (C.y j - C.y p) ^ 2 ≤ P.maxPermeability)
    (hd : ∀ b, C.damage b ≤ d' b)
    (hQ : fluidFlow C P pr nbs.length (encode nbs) = .ok Q)
    (hQ' : fluidFlow { C with damage := d' } P pr nbs.length (encode nbs) = .ok Q')
    (hp : ∀ j, HasBond nbs k j ∨ HasBond nbs j k → pr k ≤ pr j) : Q k ≤ Q' k :=
  flow_share hP hv hmax hQ hQ' hp fun b => share_mono P (by nlinarith [hd b])

/-- For a permeability curve with `alpha ≥ 0` the code does the opposite: further damage never lets more
fluid flow into a point of lowest pressure. -/
theorem C107_opposite (C : Config) (P : Fluid) (nbs : List (List Nat)) (pr Q Q' d' : Nat → ℝ) (k : Nat)
    (hP : P.Physical) (hv : ∀ p, 0 ≤ C.v p) (ha : 0 ≤ P.alpha)
    (hmax : ∀ p j, HasBond nbs p j → P.permeability / 4 * len (C.y j - C.y p) ^ 2 ≤ P.maxPermeability)
    (hd : ∀ b, C.damage b ≤ d' b)
    (hQ : fluidFlow C P pr nbs.length (encode nbs) = .ok Q)
    (hQ' : fluidFlow { C with damage := d' } P pr nbs.length (encode nbs) = .ok Q')
    (hp : ∀ j, HasBond nbs k j ∨ HasBond nbs j k → pr k ≤ pr j) : Q' k ≤ Q k :=
  flow_share (C := { C with damage := d' }) (d' := C.damage) hP hv hmax hQ' hQ hp
    fun b => share_mono P (by simp only; nlinarith [hd b])

/-- Two points one unit apart with a bond of damage `d`. -/
def couple (d : ℝ) : Config where
  x := fun k => ![k, 0, 0]
  y := fun k => ![k, 0, 0]
  v := fun _ => 1
  m := fun _ => 1
  damage := fun _ => d
  omega := fun _ _ => 1
  horizon := 1
  thermal := none

theorem couple_flow (alpha d : ℝ) :
    ∃ Q, fluidFlow (couple d) (water alpha) (fun k => k) 2 (encode [[1], []]) = .ok Q ∧
      Q 0 = 4 / Real.pi * (1 / 4 + 39 / 4 * share (water alpha) d) := by
  obtain ⟨Q, hQ⟩ := C106_defined (couple d) (water alpha) [[1], []] (fun k => k) (water_physical alpha)
    (by norm_num [couple]) (by
      rintro p j ⟨ns, hp, hj⟩
      match p, hp with
      | 0, hp => cases hp; simp at hj; subst hj; intro h; simpa [couple] using congrFun h 0
      | 1, hp => cases hp; simp at hj
      | p + 2, hp => simp at hp)
  refine ⟨Q, hQ, ?_⟩
  obtain ⟨q, h1, h2⟩ := flow_eq hQ
  have e : bondsOf [[1], []] = [⟨0, 1, 0⟩] := by decide
  rw [e] at h1 h2
  have hq := bondFlow_eq (h1 _ List.mem_cons_self)
  have hdy : (couple d).dY ⟨0, 1, 0⟩ = 1 := by
    simp [Config.dY, Config.yd, len, couple]
  rw [effective_eq, mobility, hdy] at hq
  rw [h2 0]
  simp only [List.map_cons, List.map_nil, List.sum_cons, List.sum_nil, flowPull]
  rw [hq]
  simp only [water, couple, viscosityAt]
  norm_num
  ring

/-- The statement of C107 fails for every positive `alpha`: in a body of two points, breaking the bond
reduces the flow. -/
theorem C107_broken (alpha : ℝ) (ha : 0 < alpha) :
    ∃ Q Q', fluidFlow (couple 0) (water alpha) (fun k => k) 2 (encode [[1], []]) = .ok Q ∧
      fluidFlow (couple 1) (water alpha) (fun k => k) 2 (encode [[1], []]) = .ok Q' ∧ Q' 0 < Q 0 := by
  obtain ⟨Q, hQ, h⟩ := couple_flow alpha 0
  obtain ⟨Q', hQ', h'⟩ := couple_flow alpha 1
  refine ⟨Q, Q', hQ, hQ', ?_⟩
  rw [h, h']
  have : share (water alpha) 1 < share (water alpha) 0 := by
    unfold share
    apply one_div_lt_one_div_of_lt
    · have := Real.exp_pos ((water alpha).alpha * (0 - (water alpha).inflection)); linarith
    · have : Real.exp ((water alpha).alpha * (0 - (water alpha).inflection)) <
          Real.exp ((water alpha).alpha * (1 - (water alpha).inflection)) := by
        apply Real.exp_lt_exp.2
        simp only [water]
        nlinarith
      linarith
  have hpi : 0 < 4 / Real.pi := by have := Real.pi_pos; positivity
  nlinarith

/-- With negative `alpha` the two-point body satisfies the hypotheses of `C107_partial`. -/
example : ∃ Q Q', fluidFlow (couple 0) (water (-1)) (fun k => k) 2 (encode [[1], []]) = .ok Q ∧
    fluidFlow { couple 0 with damage := fun _ => 1 } (water (-1)) (fun k => k) 2 (encode [[1], []]) = .ok Q' ∧
    Q 0 ≤ Q' 0 := by
  obtain ⟨Q, hQ, h⟩ := couple_flow (-1) 0
  obtain ⟨Q', hQ', h'⟩ := couple_flow (-1) 1
  refine ⟨Q, Q', hQ, hQ', ?_⟩
  refine C107_partial (couple 0) (water (-1)) [[1], []] _ Q Q' (fun _ => 1) 0 (water_physical _)
    (fun _ => by simp [couple]) (by norm_num [water]) ?_ (fun _ => by norm_num [couple]) hQ hQ'
    (fun j _ => by simp)
  rintro p j ⟨ns, hp, hj⟩
  match p, hp with
  | 0, hp =>
    cases hp
    have : j = 1 := by simpa using hj
    subst this
    simp [couple, len, water]
    norm_num
  | 1, hp => cases hp; simp at hj
  | p + 2, hp => simp at hp

/-! ### C108: force with pore pressure -/

/-- **C108**, momentum: pore pressure changes neither the total force nor the total moment, which are
zero; and fluid is conserved. -/
theorem C108_momentum (C : Config) (K mu : ℝ) (P : Fluid) (dsf pr : Nat → ℝ) (nbs : List (List Nat))
    (th theta : Nat → ℝ) (F : Nat → V3) (Q : Nat → ℝ) (N : Nat) (hN : Within nbs N)
    (h : multiphysicsMaterial C K mu P dsf pr nbs.length (encode nbs) th = .ok (theta, F, Q)) :
    totalForce C.v F N = 0 ∧ totalMoment C.y C.v F N = 0 ∧ total C.v Q N = 0 := by
  obtain ⟨_, h2, h3⟩ := multiphysics_parts h
  have hs := kernel_scattered h2
  exact ⟨force_of_scattered hs (bonds_within hN),
    moment_of_scattered (hs.mono fun b _ g hg => coupledBond_central hg) (bonds_within hN),
    C106_mass C P nbs pr Q N hN h3⟩

/-- **C108**, flow: the flow the material reports is that of the given pressures. -/
theorem C108_flow (C : Config) (K mu : ℝ) (P : Fluid) (dsf pr : Nat → ℝ) (nbs : List (List Nat))
    (th theta : Nat → ℝ) (F : Nat → V3) (Q : Nat → ℝ) (k j : Nat)
    (h : multiphysicsMaterial C K mu P dsf pr nbs.length (encode nbs) th = .ok (theta, F, Q))
    (hP : P.Physical) (hperm : 0 < P.permeability) (hv : ∀ p, 0 < C.v p)
    (hp : ∀ j, HasBond nbs k j ∨ HasBond nbs j k → pr j ≤ pr k)
    (hj : HasBond nbs k j) (hlt : pr j < pr k) : Q k < 0 :=
  C106_flows C P nbs pr Q k j hP hperm hv (multiphysics_parts h).2.2 hp hj hlt

/-- **C108**, no pressure: without pore pressure and surface correction the force is that of the elastic
material. -/
theorem C108_elastic (C : Config) (K mu : ℝ) (P : Fluid) (dsf pr : Nat → ℝ) (nbs : List (List Nat))
    (th theta : Nat → ℝ) (F : Nat → V3) (Q : Nat → ℝ)
    (h : multiphysicsMaterial C K mu P dsf pr nbs.length (encode nbs) th = .ok (theta, F, Q))
    (hp : ∀ p < nbs.length, pr p = 0) (hd : ∀ p < nbs.length, dsf p = 1) :
    elasticMaterial C K mu nbs.length (encode nbs) th = .ok (theta, F) := by
  obtain ⟨h1, h2, _⟩ := multiphysics_parts h
  have : elasticForce C K mu theta nbs.length (encode nbs) 0 = .ok F := by
    rw [elasticForce, ← h2, kernel, kernel, visited_encode]
    simp only
    have : ∀ (bs : List Bond) (G : Nat → V3), (∀ b ∈ bs, b.i < nbs.length) →
        scatter (selfVol C) (nbrVol C) (elasticBond C K mu theta) bs G =
        scatter (selfVol C) (nbrVol C) (coupledBond C K mu dsf pr theta) bs G := by
      intro bs
      induction bs with
      | nil => intros; rfl
      | cons b bs ih =>
        intro G hb
        have hi := hb b List.mem_cons_self
        have e : elasticBond C K mu theta b = coupledBond C K mu dsf pr theta b := by
          unfold elasticBond coupledBond
          rw [hp _ hi, hd _ hi]
          simp only [mul_one, mul_zero, sub_zero]
        rw [scatter, scatter, e]
        cases coupledBond C K mu dsf pr theta b with
        | ok g => exact ih _ fun c hc => hb c (List.mem_cons_of_mem _ hc)
        | fail _ => rfl
        | ub => rfl
    apply this
    intro b hb
    obtain ⟨ns, hp, _⟩ := mem_bondsOf hb
    exact (List.getElem?_eq_some_iff.1 hp).1
  rw [elasticMaterial, h1]
  simp only
  rw [this]

theorem coupledBond_eq {C : Config} {K mu : ℝ} {dsf pr theta : Nat → ℝ} {b : Bond} {g : V3}
    (h : coupledBond C K mu dsf pr theta b = .ok g) :
    C.m b.i ≠ 0 ∧ C.dY b ≠ 0 ∧ g = (((1 - C.damage b.b) *
      ((C.om b * theta b.i * (3 * K / C.m b.i - 15 * mu / C.m b.i * dsf b.i / 3) -
        3 * C.om b / C.m b.i * pr b.i) * C.zeta b +
        (1 - C.damage b.b) * C.om b * (15 * mu / C.m b.i * dsf b.i) * C.ext b)) / C.dY b) • C.yd b := by
  unfold coupledBond at h
  split at h
  · cases h
  · next hm =>
    unfold along at h
    split at h
    · cases h
    · next hd =>
      cases h
      refine ⟨hm, hd, ?_⟩
      funext c
      simp only [Pi.smul_apply, smul_eq_mul]
      ring

theorem dot_self (d : V3) : d ⬝ᵥ d = len d ^ 2 := by
  rw [len, Real.sq_sqrt]
  · simp [dotProduct, Fin.sum_univ_three]
  · nlinarith [mul_self_nonneg (d 0), mul_self_nonneg (d 1), mul_self_nonneg (d 2)]

/-- **C108**, size: in an undeformed, undamaged body the forces are those of the pore pressures alone, and
their virial is three times the sum of pressure times volume, as for a gas in the pores. -/
theorem C108_virial (C : Config) (K mu : ℝ) (P : Fluid) (dsf pr : Nat → ℝ) (nbs : List (List Nat))
    (th theta : Nat → ℝ) (F : Nat → V3) (Q : Nat → ℝ) (N : Nat) (hN : Within nbs N)
    (h : multiphysicsMaterial C K mu P dsf pr nbs.length (encode nbs) th = .ok (theta, F, Q))
    (hw : Weighted C nbs) (hm : ∀ p < nbs.length, C.m p ≠ 0) (hi : ∀ b, C.damage b = 0)
    (hy : C.y = C.x) (ht : C.thermal = none) :
    power C F C.x N = 3 * ∑ p ∈ Finset.range nbs.length, pr p * C.v p := by
  obtain ⟨h1, h2, _⟩ := multiphysics_parts h
  obtain ⟨gs, g1, g2, g3⟩ := kernel_scattered h2
  have hbw := bonds_within hN
  have h4 := sum_scattered_gen N (fun k => C.v k • dotL (C.x k)) g3 (fun x hx => by
    have : x.1 ∈ bondsOf nbs := by rw [← g1]; exact List.mem_map_of_mem hx
    exact hbw _ this)
  have hpow : power C F C.x N = ∑ k ∈ Finset.range N, (C.v k • dotL (C.x k)) (F k) := rfl
  have hlt : ∀ b ∈ bondsOf nbs, b.i < nbs.length := by
    intro b hb
    obtain ⟨ns, hp, _⟩ := mem_bondsOf hb
    exact (List.getElem?_eq_some_iff.1 hp).1
  have hext : ∀ b, C.ext b = 0 := by
    intro b
    unfold Config.ext Config.dY Config.yd Config.zeta
    rw [ht, hy]
    simp
  have hth : ∀ p < nbs.length, theta p = 0 := by
    intro p hp
    rw [dilatation_eq h1 hp]
    apply List.sum_eq_zero
    intro x hx
    obtain ⟨b, _, rfl⟩ := List.mem_map.1 hx
    rw [hext]; ring
  have hsum := sum_partition (bondsOf nbs) nbs.length hlt (fun b => C.om b * C.zeta b ^ 2 * C.v b.j)
    (fun p => 3 * (pr p * C.v p) / C.m p)
  have hl : ∀ p ∈ Finset.range nbs.length, (((bondsOf nbs).filter fun b => b.i = p).map
      fun b => C.om b * C.zeta b ^ 2 * C.v b.j).sum * (3 * (pr p * C.v p) / C.m p) =
      3 * (pr p * C.v p) := by
    intro p hp
    have hp := Finset.mem_range.1 hp
    rw [← weighted_eq hw hp]
    have := hm p hp
    field_simp
  rw [Finset.sum_congr rfl hl, ← Finset.mul_sum] at hsum
  rw [hsum, hpow, h4, ← g1, List.map_map]
  simp only [Pi.zero_apply, map_zero, Finset.sum_const_zero, zero_add]
  congr 1
  apply List.map_congr_left
  intro x hx
  obtain ⟨hm0, hd0, hg⟩ := coupledBond_eq (g2 x hx)
  have hb : x.1 ∈ bondsOf nbs := by rw [← g1]; exact List.mem_map_of_mem hx
  rw [hth _ (hlt _ hb), hext, hi] at hg
  have e1 : ∀ w : V3, dotL w x.2 = -(3 * C.om x.1 / C.m x.1.i * pr x.1.i) * C.zeta x.1 / C.dY x.1 *
      (C.yd x.1 ⬝ᵥ w) := by
    intro w
    rw [hg, map_smul, smul_eq_mul]
    have : dotL w (C.yd x.1) = C.yd x.1 ⬝ᵥ w := rfl
    rw [this]
    ring
  have hyd : C.yd x.1 ⬝ᵥ C.x x.1.i = C.yd x.1 ⬝ᵥ C.x x.1.j - C.zeta x.1 ^ 2 := by
    have a : C.yd x.1 = C.x x.1.j - C.x x.1.i := by unfold Config.yd; rw [hy]
    rw [Config.zeta, ← dot_self, a, dotProduct_sub]
    ring
  have hdz : C.dY x.1 = C.zeta x.1 := by unfold Config.dY Config.yd Config.zeta; rw [hy]
  have ej : nbrVol C x.1 = C.v x.1.j := rfl
  have ei : selfVol C x.1 = C.v x.1.i := rfl
  rw [hdz] at hd0
  simp only [Function.comp, LinearMap.smul_apply, e1, smul_eq_mul, ei, ej, hdz, hyd]
  field_simp
  ring

/-- **C108**, defined: in a proper configuration with a physical fluid all three results can be
computed. -/
theorem C108_defined (C : Config) (K mu : ℝ) (P : Fluid) (dsf pr : Nat → ℝ) (nbs : List (List Nat))
    (th : Nat → ℝ) (hP : P.Physical) (hh : C.horizon ≠ 0) (h : Proper C nbs) :
    ∃ theta F Q, multiphysicsMaterial C K mu P dsf pr nbs.length (encode nbs) th = .ok (theta, F, Q) := by
  obtain ⟨theta, ht⟩ := dilatation_ok h th
  obtain ⟨Q, hQ⟩ := fluid_ok (nbs := nbs) hP hh (fun p j hb => (h p j hb).2.1) pr
  obtain ⟨F, hF⟩ : ∃ F, kernel (selfVol C) (nbrVol C) (coupledBond C K mu dsf pr theta) nbs.length
      (encode nbs) 0 = .ok F := by
    rw [kernel, visited_encode]
    apply scatter_ok
    intro b hb
    obtain ⟨hm, hy, _⟩ := h _ _ (mem_bondsOf hb)
    exact ⟨_, by rw [coupledBond, if_neg hm]; exact along_ok hy _⟩
  exact ⟨theta, F, Q, Outcome.bind_eq_ok.2 ⟨theta, ht, Outcome.bind_eq_ok.2 ⟨F, hF,
    Outcome.bind_eq_ok.2 ⟨Q, hQ, rfl⟩⟩⟩⟩

/-- The deformed body of three points. -/
example : ∃ theta F Q, multiphysicsMaterial demo 1 1 (water 1) (fun _ => 1) (fun k => k) demoNbs.length
    (encode demoNbs) 0 = .ok (theta, F, Q) :=
  C108_defined demo 1 1 (water 1) _ _ demoNbs 0 (water_physical 1) (by norm_num [demo]) demo_proper

/-- The undeformed body of three points with pore pressure at one of them: the virial is not zero. -/
example : ∃ theta F Q, multiphysicsMaterial { row with y := row.x } 2 1 (water 1) (fun _ => 1)
    (fun k => if k = 0 then 1 else 0) rowNbs.length (encode rowNbs) 0 = .ok (theta, F, Q) ∧
    power { row with y := row.x } F row.x 3 = 3 := by
  obtain ⟨theta, F, Q, h⟩ := C108_defined { row with y := row.x } 2 1 (water 1) (fun _ => 1)
    (fun k => if k = 0 then 1 else 0) rowNbs 0 (water_physical 1) (by norm_num [row])
    (fun p j hb => ⟨(row_proper row.damage p j hb).1, (row_proper row.damage p j hb).2.2,
      (row_proper row.damage p j hb).2.2⟩)
  refine ⟨theta, F, Q, h, ?_⟩
  rw [C108_virial _ _ _ _ _ _ _ _ _ _ _ 3 row_within h row_weighted row_m (fun _ => rfl) rfl rfl]
  have : rowNbs.length = 3 := rfl
  rw [this, Finset.sum_range_succ, Finset.sum_range_succ, Finset.sum_range_one]
  norm_num [row]

end Verif.Diffusion
