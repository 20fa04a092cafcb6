import Verif.Mech.Frame
import Verif.Mech.Props

/-!
# Properties C19 to C22: objectivity, rigid motions, broken bonds, weighted volume
-/

noncomputable section

namespace Verif.Mech

open Verif Verif.Neigh Matrix

/-! ### C19 -/

/-- C19 for the state-based elastic material: after a superposed rigid motion the material returns
exactly when it did before, with the same dilatation and with rotated forces. -/
theorem C19_elastic (C : Config) (Q : Matrix (Fin 3) (Fin 3) ℝ) (hQ : Qᵀ * Q = 1) (c : V3) (K mu : ℝ)
    (n : Nat) (l : List Nat) (th : Nat → ℝ) :
    elasticMaterial { C with y := moved Q c C.y } K mu n l th =
      (elasticMaterial C K mu n l th).map fun r => (r.1, fun k => Q *ᵥ r.2 k) := by
  change elasticMaterial (C.move Q c) K mu n l th = _
  unfold elasticMaterial
  rw [move_dilatation hQ]
  cases dilatation C n l th with
  | ok theta =>
    simp only
    have hk := kernel_rot (Q := Q) (selfVol C) (nbrVol C) (elasticBond C K mu theta)
      (elasticBond (C.move Q c) K mu theta) (move_elasticBond hQ c C K mu theta) n l
    have he : elasticForce (C.move Q c) K mu theta n l 0 =
        (elasticForce C K mu theta n l 0).map fun R k => Q *ᵥ R k := hk
    rw [he]
    cases elasticForce C K mu theta n l 0 <;> rfl
  | fail e => rfl
  | ub => rfl

/-- C19 for the bond-based elastic material. -/
theorem C19_bondBased (C : Config) (Q : Matrix (Fin 3) (Fin 3) ℝ) (hQ : Qᵀ * Q = 1) (c : V3) (K : ℝ)
    (planar : Option ℝ) (n : Nat) (l : List Nat) :
    bondBasedMaterial { C with y := moved Q c C.y } K planar n l =
      (bondBasedMaterial C K planar n l).map fun R k => Q *ᵥ R k := by
  change bondBasedMaterial (C.move Q c) K planar n l = _
  unfold bondBasedMaterial
  have hh : (C.move Q c).horizon = C.horizon := rfl
  rw [hh]
  cases bondConstant K C.horizon planar with
  | ok k => exact kernel_rot (Q := Q) (selfVol C) (nbrVol C) _ _ (move_bondBasedBond hQ c C k) n l
  | fail e => rfl
  | ub => rfl

/-- C19 for the elastic-plastic material: the plastic variables do not notice the rigid motion. -/
theorem C19_plastic (C : Config) (Q : Matrix (Fin 3) (Fin 3) ℝ) (hQ : Qᵀ * Q = 1) (c : V3)
    (P : PlasticConst) (n : Nat) (l : List Nat) (th edpN lambdaN : Nat → ℝ) (s : PlasticState) :
    plasticMaterial { C with y := moved Q c C.y } P n l th edpN lambdaN s =
      (plasticMaterial C P n l th edpN lambdaN s).map fun r =>
        (r.1, { r.2 with F := fun k => Q *ᵥ r.2.F k }) := by
  change plasticMaterial (C.move Q c) P n l th edpN lambdaN s = _
  unfold plasticMaterial
  have hd : dilatation { C.move Q c with thermal := none } n l th =
      dilatation { C with thermal := none } n l th :=
    move_dilatation hQ c { C with thermal := none } n l th
  rw [hd]
  cases dilatation { C with thermal := none } n l th with
  | ok theta =>
    simp only
    have hp : plasticForce (C.move Q c) P theta edpN lambdaN n l { s with F := 0 } =
        (plasticForce C P theta edpN lambdaN n l { s with F := 0 }).map (PlasticState.rot Q) := by
      unfold plasticForce
      have hh : (C.move Q c).horizon = C.horizon := rfl
      rw [hh]
      cases yieldValue P C.horizon with
      | ok yv =>
        simp only
        cases visitedBonds n l with
        | ok bonds =>
          simp only
          have := move_plasticPoints hQ c C P yv theta edpN lambdaN bonds (List.range n)
            { s with F := 0 }
          simp only [PlasticState.rot, rot_zero] at this
          exact this
        | fail e => rfl
        | ub => rfl
      | fail e => rfl
      | ub => rfl
    rw [hp]
    cases plasticForce C P theta edpN lambdaN n l { s with F := 0 } <;> rfl
  | fail e => rfl
  | ub => rfl

/-- C19 for the viscoelastic material, where the old and the new configuration may be moved by
different rigid motions. -/
theorem C19_visco (C : Config) (Q Q' : Matrix (Fin 3) (Fin 3) ℝ) (hQ : Qᵀ * Q = 1) (hQ' : Q'ᵀ * Q' = 1)
    (c c' : V3) (P : ViscoConst) (dt : ℝ) (yN : Nat → V3) (thetaN edbN : Nat → ℝ) (n : Nat)
    (l : List Nat) (th edb : Nat → ℝ) :
    viscoMaterial { C with y := moved Q c C.y } P dt (moved Q' c' yN) thetaN edbN n l th edb =
      (viscoMaterial C P dt yN thetaN edbN n l th edb).map fun r =>
        (r.1, r.2.1, fun k => Q *ᵥ r.2.2 k) := by
  change viscoMaterial (C.move Q c) P dt (moved Q' c' yN) thetaN edbN n l th edb = _
  unfold viscoMaterial
  have hd : dilatation { C.move Q c with thermal := none } n l th =
      dilatation { C with thermal := none } n l th :=
    move_dilatation hQ c { C with thermal := none } n l th
  rw [hd]
  cases dilatation { C with thermal := none } n l th with
  | ok theta =>
    simp only
    have hp : viscoForce (C.move Q c) P dt (moved Q' c' yN) thetaN theta edbN n l (edb, 0) =
        (viscoForce C P dt yN thetaN theta edbN n l (edb, 0)).map
          fun r => (r.1, fun k => Q *ᵥ r.2 k) := by
      unfold viscoForce
      cases viscoCoefficients P.tauB dt with
      | ok q =>
        obtain ⟨decay, beta⟩ := q
        simp only
        cases visitedBonds n l with
        | ok bonds =>
          simp only
          have := move_viscoLoop hQ c C hQ' c' P decay beta yN thetaN theta edbN bonds (edb, 0)
          simp only [rot_zero] at this
          exact this
        | fail e => rfl
        | ub => rfl
      | fail e => rfl
      | ub => rfl
    rw [hp]
    cases viscoForce C P dt yN thetaN theta edbN n l (edb, 0) <;> rfl
  | fail e => rfl
  | ub => rfl

/-- A rotation by a quarter turn meets the hypothesis. -/
example : (!![0, -1, 0; 1, 0, 0; 0, 0, 1] : Matrix (Fin 3) (Fin 3) ℝ)ᵀ * !![0, -1, 0; 1, 0, 0; 0, 0, 1] = 1 := by
  ext i j
  fin_cases i <;> fin_cases j <;> simp [Matrix.mul_apply, Fin.sum_univ_three]

/-! ### C20 -/

theorem rigid_dY {C : Config} {Q : Matrix (Fin 3) (Fin 3) ℝ} (hQ : Qᵀ * Q = 1) {c : V3}
    (hy : C.y = moved Q c C.x) (b : Bond) : C.dY b = C.zeta b := by
  unfold Config.dY Config.yd Config.zeta
  rw [hy, moved_sub, len_rot Q hQ]

theorem dilatationLoop_zero {C : Config} {bs : List Bond} (h : ∀ b ∈ bs, dilatationTerm C b = .ok 0)
    (th : Nat → ℝ) : dilatationLoop C bs th = .ok th := by
  induction bs with
  | nil => rfl
  | cons b bs ih =>
    rw [dilatationLoop, h b List.mem_cons_self]
    simp only [add_zero, Function.update_eq_self]
    exact ih fun b' hb' => h b' (List.mem_cons_of_mem _ hb')

theorem scatter_zero {vi vj : Bond → ℝ} {f : Bond → Outcome V3} {bs : List Bond}
    (h : ∀ b ∈ bs, f b = .ok 0) (F : Nat → V3) : scatter vi vj f bs F = .ok F := by
  induction bs generalizing F with
  | nil => rfl
  | cons b bs ih =>
    rw [scatter, h b List.mem_cons_self]
    simp only
    have : scatterStep vi vj F b 0 = F := by
      funext k
      rw [scatterStep_apply]
      simp [pull]
    rw [this]
    exact ih (fun b' hb' => h b' (List.mem_cons_of_mem _ hb')) F

theorem along_zero {C : Config} {b : Bond} (h : C.y b.j ≠ C.y b.i) : along C b 0 = .ok 0 := by
  rw [along_ok h]
  congr 1
  funext k
  simp

/-- C20: if the deformed configuration is a rigid motion of the reference configuration and there is no
thermal strain, then whatever the damage the dilatation and the forces of the state-based and
bond-based elastic materials vanish, for every mesh without coinciding bonded points. -/
theorem C20_rigid (C : Config) (Q : Matrix (Fin 3) (Fin 3) ℝ) (hQ : Qᵀ * Q = 1) (c : V3)
    (hy : C.y = moved Q c C.x) (ht : C.thermal = none) (nbs : List (List Nat)) (hp : Proper C nbs)
    (K mu : ℝ) (th : Nat → ℝ) :
    (∃ theta, elasticMaterial C K mu nbs.length (encode nbs) th = .ok (theta, 0) ∧
        ∀ p < nbs.length, theta p = 0) ∧
      (C.horizon ≠ 0 → bondBasedMaterial C K none nbs.length (encode nbs) = .ok 0) := by
  have he : ∀ b, C.ext b = 0 := by
    intro b
    unfold Config.ext
    rw [ht]
    simp [rigid_dY hQ hy]
  have hprop := fun b (hb : b ∈ bondsOf nbs) => hp _ _ (mem_bondsOf hb)
  constructor
  · refine ⟨fun p => if p < nbs.length then 0 else th p, ?_, fun p hlt => if_pos hlt⟩
    have hd : dilatation C nbs.length (encode nbs) th =
        .ok fun p => if p < nbs.length then 0 else th p := by
      rw [dilatation, visited_encode]
      apply dilatationLoop_zero
      intro b hb
      rw [dilatationTerm, if_neg (hprop b hb).1, he]
      simp
    rw [elasticMaterial, hd]
    simp only
    have hf : elasticForce C K mu (fun p => if p < nbs.length then 0 else th p) nbs.length (encode nbs) 0
        = .ok 0 := by
      rw [elasticForce, kernel, visited_encode]
      apply scatter_zero
      intro b hb
      rw [elasticBond, if_neg (hprop b hb).1]
      have hi : b.i < nbs.length := by
        obtain ⟨ns, h1, _⟩ := mem_bondsOf hb
        exact (List.getElem?_eq_some_iff.1 h1).1
      rw [← along_zero (hprop b hb).2.1]
      simp only [he, if_pos hi]
      congr 1
      ring
    rw [hf]
  · intro hh
    have hpi := Real.pi_ne_zero
    rw [bondBasedMaterial, bondConstant, if_neg (by simp [hpi, hh])]
    simp only [kernel, visited_encode]
    apply scatter_zero
    intro b hb
    have hz : C.zeta b ≠ 0 := fun h0 => (hprop b hb).2.2 (sub_eq_zero.1 (len_eq_zero.1 h0))
    rw [bondBasedBond, if_neg hz, ← along_zero (hprop b hb).2.1]
    simp only [rigid_dY hQ hy]
    congr 1
    simp

/-- The undeformed, shifted version of the case of C17 meets the hypotheses. -/
example : ∃ C : Config, C.y = moved 1 ![1, 2, 3] C.x ∧ C.thermal = none ∧ Proper C demoNbs ∧
    C.horizon ≠ 0 := by
  refine ⟨{ demo with y := moved 1 ![1, 2, 3] demo.x }, rfl, rfl, ?_, by norm_num [demo]⟩
  intro p j h
  obtain ⟨h1, _, h3⟩ := demo_proper p j h
  refine ⟨h1, fun h => h3 ?_, h3⟩
  have h' : (1 : Matrix (Fin 3) (Fin 3) ℝ) *ᵥ demo.x j + ![1, 2, 3] = (1 : Matrix (Fin 3) (Fin 3) ℝ) *ᵥ demo.x p + ![1, 2, 3] := h
  rw [Matrix.one_mulVec, Matrix.one_mulVec] at h'
  exact add_right_cancel h'

/-! ### C21 -/

theorem dilatationLoop_congr {C C' : Config} {bs : List Bond}
    (h : ∀ b ∈ bs, dilatationTerm C b = dilatationTerm C' b) (th : Nat → ℝ) :
    dilatationLoop C bs th = dilatationLoop C' bs th := by
  induction bs generalizing th with
  | nil => rfl
  | cons b bs ih =>
    rw [dilatationLoop, dilatationLoop, h b List.mem_cons_self]
    cases dilatationTerm C' b with
    | ok t => exact ih (fun b' hb' => h b' (List.mem_cons_of_mem _ hb')) _
    | fail e => rfl
    | ub => rfl

theorem scatter_congr {vi vj vi' vj' : Bond → ℝ} {f f' : Bond → Outcome V3} {bs : List Bond}
    (h : ∀ b ∈ bs, f b = f' b) (hv : vi = vi') (hv' : vj = vj') (F : Nat → V3) :
    scatter vi vj f bs F = scatter vi' vj' f' bs F := by
  subst hv hv'
  induction bs generalizing F with
  | nil => rfl
  | cons b bs ih =>
    rw [scatter, scatter, h b List.mem_cons_self]
    cases f' b with
    | ok t => exact ih (fun b' hb' => h b' (List.mem_cons_of_mem _ hb')) _
    | fail e => rfl
    | ub => rfl

/-- The bonds of `nbs` with damage below or above 1 end only in points of which `S` holds. -/
def UnbrokenWithin (C : Config) (nbs : List (List Nat)) (S : Nat → Prop) : Prop :=
  ∀ p t j : Nat, (∃ ns, nbs[p]? = some ns ∧ ns[t]? = some j) → C.damage (bondPos nbs p t) ≠ 1 →
    S p ∧ S j

theorem bondsOf_pos {nbs : List (List Nat)} {b : Bond} (h : b ∈ bondsOf nbs) :
    ∃ t, (∃ ns, nbs[b.i]? = some ns ∧ ns[t]? = some b.j) ∧ b.b = bondPos nbs b.i t := by
  have key : ∀ (nbs : List (List Nat)) (p k : Nat) (b : Bond), b ∈ bondsFrom nbs p k →
      ∃ q t, b.i = p + q ∧ (∃ ns, nbs[q]? = some ns ∧ ns[t]? = some b.j) ∧
        b.b = k + bondPos nbs q t := by
    intro nbs
    induction nbs with
    | nil => intro p k b hb; cases hb
    | cons ns nbs ih =>
      intro p k b hb
      rw [bondsFrom, List.mem_append] at hb
      rcases hb with hb | hb
      · have hpb : ∀ (ns : List Nat) (k : Nat), b ∈ pointBonds p ns k →
            ∃ t, b.i = p ∧ ns[t]? = some b.j ∧ b.b = k + t := by
          intro ns
          induction ns with
          | nil => intro k hb; cases hb
          | cons j ns ih2 =>
            intro k hb
            rw [pointBonds, List.zipIdx_cons, List.map_cons, List.mem_cons] at hb
            rcases hb with rfl | hb
            · exact ⟨0, rfl, rfl, rfl⟩
            · obtain ⟨t, h1, h2, h3⟩ := ih2 (k + 1) hb
              exact ⟨t + 1, h1, by simpa using h2, by omega⟩
        obtain ⟨t, h1, h2, h3⟩ := hpb ns k hb
        exact ⟨0, t, h1, ⟨ns, rfl, h2⟩, by simp [bondPos, h3]⟩
      · obtain ⟨q, t, h1, ⟨ns', h2, h2'⟩, h3⟩ := ih (p + 1) (k + ns.length) b hb
        refine ⟨q + 1, t, by omega, ⟨ns', by simpa using h2, h2'⟩, ?_⟩
        rw [h3]
        simp only [bondPos, List.take_succ_cons, List.map_cons, List.sum_cons]
        omega
  obtain ⟨q, t, h1, h2, h3⟩ := key nbs 0 0 b h
  rw [Nat.zero_add] at h1 h3
  subst h1
  exact ⟨t, h2, h3⟩

theorem elasticBond_broken {C : Config} {K mu : ℝ} {theta : Nat → ℝ} {b : Bond} (hd : C.damage b.b = 1)
    (hm : C.m b.i ≠ 0) (hy : C.y b.j ≠ C.y b.i) : elasticBond C K mu theta b = .ok 0 := by
  rw [elasticBond, if_neg hm, hd, ← along_zero hy]
  simp

theorem bondBasedBond_broken {C : Config} {k : ℝ} {b : Bond} (hd : C.damage b.b = 1)
    (hz : C.zeta b ≠ 0) (hy : C.y b.j ≠ C.y b.i) : bondBasedBond C k b = .ok 0 := by
  rw [bondBasedBond, if_neg hz, hd, ← along_zero hy]
  simp

theorem dilatationTerm_broken {C : Config} {b : Bond} (hd : C.damage b.b = 1) (hm : C.m b.i ≠ 0) :
    dilatationTerm C b = .ok 0 := by
  rw [dilatationTerm, if_neg hm, hd]
  simp

/-- C21, first half: what is done with points that no unbroken bond reaches has no effect at all.  If two
deformed configurations agree at the ends of all unbroken bonds (and differ arbitrarily elsewhere),
dilatation and forces of the state-based and bond-based materials are the same. -/
theorem C21_no_load (C : Config) (y' : Nat → V3) (nbs : List (List Nat)) (hp : Proper C nbs)
    (hp' : Proper { C with y := y' } nbs)
    (hS : UnbrokenWithin C nbs fun k => C.y k = y' k) (K mu : ℝ) (planar : Option ℝ) (th : Nat → ℝ) :
    elasticMaterial C K mu nbs.length (encode nbs) th =
        elasticMaterial { C with y := y' } K mu nbs.length (encode nbs) th ∧
      bondBasedMaterial C K planar nbs.length (encode nbs) =
        bondBasedMaterial { C with y := y' } K planar nbs.length (encode nbs) := by
  have hcase : ∀ b ∈ bondsOf nbs, C.damage b.b = 1 ∨ (C.y b.i = y' b.i ∧ C.y b.j = y' b.j) := by
    intro b hb
    obtain ⟨t, h1, h2⟩ := bondsOf_pos hb
    by_cases hd : C.damage b.b = 1
    · exact Or.inl hd
    · exact Or.inr (hS b.i t b.j h1 (h2 ▸ hd))
  have hprop := fun b (hb : b ∈ bondsOf nbs) => hp _ _ (mem_bondsOf hb)
  have hprop' := fun b (hb : b ∈ bondsOf nbs) => hp' _ _ (mem_bondsOf hb)
  have hsame : ∀ b, C.y b.i = y' b.i → C.y b.j = y' b.j →
      ({ C with y := y' } : Config).yd b = C.yd b := by
    intro b h1 h2
    simp only [Config.yd]
    rw [h1, h2]
  have hdY : ∀ b, C.y b.i = y' b.i → C.y b.j = y' b.j →
      ({ C with y := y' } : Config).dY b = C.dY b := by
    intro b h1 h2
    simp only [Config.dY, hsame b h1 h2]
  have hext : ∀ b, C.y b.i = y' b.i → C.y b.j = y' b.j →
      ({ C with y := y' } : Config).ext b = C.ext b := by
    intro b h1 h2
    simp only [Config.ext, hdY b h1 h2]
    rfl
  have halong : ∀ b t, C.y b.i = y' b.i → C.y b.j = y' b.j →
      along { C with y := y' } b t = along C b t := by
    intro b t h1 h2
    simp only [along, hdY b h1 h2, hsame b h1 h2]
  have hd : ∀ b ∈ bondsOf nbs, dilatationTerm C b = dilatationTerm { C with y := y' } b := by
    intro b hb
    rcases hcase b hb with h | ⟨h1, h2⟩
    · rw [dilatationTerm_broken h (hprop b hb).1, dilatationTerm_broken (by exact h) (hprop' b hb).1]
    · simp only [dilatationTerm, hext b h1 h2]
      rfl
  have hfd : ∀ theta, ∀ b ∈ bondsOf nbs,
      elasticBond C K mu theta b = elasticBond { C with y := y' } K mu theta b := by
    intro theta b hb
    rcases hcase b hb with h | ⟨h1, h2⟩
    · rw [elasticBond_broken h (hprop b hb).1 (hprop b hb).2.1,
        elasticBond_broken (by exact h) (hprop' b hb).1 (hprop' b hb).2.1]
    · simp only [elasticBond, hext b h1 h2, halong b _ h1 h2]
      rfl
  have hz := fun b (hb : b ∈ bondsOf nbs) (h0 : C.zeta b = 0) =>
    (hprop b hb).2.2 (sub_eq_zero.1 (len_eq_zero.1 h0))
  have hbb : ∀ k, ∀ b ∈ bondsOf nbs,
      bondBasedBond C k b = bondBasedBond { C with y := y' } k b := by
    intro k b hb
    rcases hcase b hb with h | ⟨h1, h2⟩
    · rw [bondBasedBond_broken h (hz b hb) (hprop b hb).2.1,
        bondBasedBond_broken (C := { C with y := y' }) h (hz b hb) (hprop' b hb).2.1]
    · simp only [bondBasedBond, hdY b h1 h2, halong b _ h1 h2]
      rfl
  constructor
  · unfold elasticMaterial dilatation
    rw [visited_encode]
    simp only
    rw [dilatationLoop_congr hd]
    cases dilatationLoop { C with y := y' } (bondsOf nbs) (fun p => if p < nbs.length then 0 else th p) with
    | ok theta =>
      simp only [elasticForce, kernel, visited_encode]
      rw [scatter_congr (hfd theta) rfl rfl]
      rfl
    | fail e => rfl
    | ub => rfl
  · unfold bondBasedMaterial
    simp only
    cases bondConstant K C.horizon planar with
    | ok k =>
      simp only [kernel, visited_encode]
      exact scatter_congr (hbb k) rfl rfl 0
    | fail e => rfl
    | ub => rfl

theorem pull_zero_of {vi vj : Bond → ℝ} {k : Nat} {gs : List (Bond × V3)}
    (h : ∀ x ∈ gs, x.2 = 0 ∨ (x.1.i ≠ k ∧ x.1.j ≠ k)) : (gs.map (pull vi vj k)).sum = 0 := by
  apply List.sum_eq_zero
  intro v hv
  obtain ⟨x, hx, rfl⟩ := List.mem_map.1 hv
  unfold pull
  rcases h x hx with h | ⟨h1, h2⟩
  · rw [h]; simp
  · rw [if_neg h1, if_neg h2, sub_zero]

theorem force_zero_of {C : Config} {P : Bond → V3 → Prop} {bs : List Bond} {R : Nat → V3}
    (h : Scattered (selfVol C) (nbrVol C) P bs 0 R) (k : Nat)
    (hz : ∀ b ∈ bs, b.i = k ∨ b.j = k → ∀ g, P b g → g = 0) : R k = 0 := by
  obtain ⟨gs, h1, h2, h3⟩ := h
  rw [h3 k, pull_zero_of, Pi.zero_apply, add_zero]
  intro x hx
  by_cases hk : x.1.i = k ∨ x.1.j = k
  · exact Or.inl (hz x.1 (by rw [← h1]; exact List.mem_map.2 ⟨x, hx, rfl⟩) hk x.2 (h2 x hx))
  · exact Or.inr (not_or.1 hk)

theorem along_damaged {C : Config} {b : Bond} {t : ℝ} {g : V3} (h : along C b t = .ok g) (ht : t = 0) :
    g = 0 := by
  unfold along at h
  split at h
  · cases h
  · cases h
    subst ht
    funext k
    simp

/-- C21, second half: a point all of whose bonds in both directions are broken has no internal force,
with the elastic and with the bond-based material. -/
theorem C21_free_point (C : Config) (nbs : List (List Nat)) (k : Nat)
    (hk : ∀ p t j : Nat, (∃ ns, nbs[p]? = some ns ∧ ns[t]? = some j) → p = k ∨ j = k →
      C.damage (bondPos nbs p t) = 1) (K mu : ℝ) (planar : Option ℝ) (th theta : Nat → ℝ)
    (F G : Nat → V3) (h : elasticMaterial C K mu nbs.length (encode nbs) th = .ok (theta, F))
    (h' : bondBasedMaterial C K planar nbs.length (encode nbs) = .ok G) : F k = 0 ∧ G k = 0 := by
  have hdam : ∀ b ∈ bondsOf nbs, b.i = k ∨ b.j = k → C.damage b.b = 1 := by
    intro b hb hor
    obtain ⟨t, h1, h2⟩ := bondsOf_pos hb
    rw [h2]
    exact hk b.i t b.j h1 hor
  constructor
  · apply force_zero_of (elastic_scattered h) k
    intro b hb hor g hg
    unfold elasticBond at hg
    split at hg
    · cases hg
    · exact along_damaged hg (by rw [hdam b hb hor]; ring)
  · obtain ⟨c, _, hs⟩ := bondBased_scattered h'
    apply force_zero_of hs k
    intro b hb hor g hg
    unfold bondBasedBond at hg
    split at hg
    · cases hg
    · exact along_damaged hg (by rw [hdam b hb hor]; ring)

/-- C21 for the viscoelastic material, whose force also vanishes at a point without unbroken bonds. -/
theorem C21_free_point_visco (C : Config) (nbs : List (List Nat)) (k : Nat)
    (hk : ∀ p t j : Nat, (∃ ns, nbs[p]? = some ns ∧ ns[t]? = some j) → p = k ∨ j = k →
      C.damage (bondPos nbs p t) = 1) (P : ViscoConst) (dt : ℝ) (yN : Nat → V3)
    (thetaN edbN th edb theta edb' : Nat → ℝ) (F : Nat → V3)
    (h : viscoMaterial C P dt yN thetaN edbN nbs.length (encode nbs) th edb = .ok (theta, edb', F)) :
    F k = 0 := by
  have hdam : ∀ b ∈ bondsOf nbs, b.i = k ∨ b.j = k → C.damage b.b = 1 := by
    intro b hb hor
    obtain ⟨t, h1, h2⟩ := bondsOf_pos hb
    rw [h2]
    exact hk b.i t b.j h1 hor
  have key : ∀ (decay beta : ℝ) (theta : Nat → ℝ) (bs : List Bond) (s s' : (Nat → ℝ) × (Nat → V3)),
      viscoLoop C P decay beta yN thetaN theta edbN bs s = .ok s' →
      Scattered (selfVol C) (nbrVol C) (fun b g => C.damage b.b = 1 → g = 0) bs s.2 s'.2 := by
    intro decay beta theta bs
    induction bs with
    | nil => intro s s' h; simp only [viscoLoop] at h; cases h; exact Scattered.nil _ _ _ _
    | cons b bs ih =>
      intro s s' h
      rw [viscoLoop] at h
      split at h
      · next f hf =>
        refine Scattered.cons ?_ (ih _ _ h)
        intro hd
        unfold viscoBond at hf
        split at hf
        · cases hf
        · exact along_damaged hf (by rw [hd]; ring)
      · cases h
      · cases h
  unfold viscoMaterial at h
  split at h
  · split at h
    · next s1 hp =>
      cases h
      unfold viscoForce at hp
      rw [visited_encode] at hp
      split at hp
      · exact force_zero_of (key _ _ _ _ _ _ hp) k fun b hb hor g hg => hg (hdam b hb hor)
      · cases hp
      · cases hp
    · cases h
    · cases h
  · cases h
  · cases h

/-- In the case of C17 the bond from point 1 to point 0 (position 1) is broken, and the configuration
that differs only at a point without bonds meets the hypothesis. -/
example : demo.damage (bondPos demoNbs 1 0) = 1 ∧ demo.damage (bondPos demoNbs 0 0) ≠ 1 ∧
    UnbrokenWithin demo demoNbs (fun k => k < 3) := by
  refine ⟨by norm_num [demo, bondPos, demoNbs], by norm_num [demo, bondPos, demoNbs], ?_⟩
  rintro p t j ⟨ns, h1, h2⟩ _
  have hlt := (List.getElem?_eq_some_iff.1 h1).1
  exact ⟨by simpa [demoNbs] using hlt, demo_within.2 ns (List.mem_of_getElem? h1) j (List.mem_of_getElem? h2)⟩

/-! ### C22 -/

/-- The term of neighbor `j` in the weighted volume of point `p`. -/
theorem weightedVolumeAt_eq (C : Config) (p : Nat) (ns : List Nat) :
    weightedVolumeAt C p ns = (ns.map fun j =>
      C.omega (len (C.x j - C.x p)) C.horizon * len (C.x j - C.x p) ^ 2 * C.v j).sum := by
  have hsq : ∀ d : V3, len d ^ 2 = d 0 * d 0 + d 1 * d 1 + d 2 * d 2 := by
    intro d
    unfold len
    rw [Real.sq_sqrt]
    nlinarith [mul_self_nonneg (d 0), mul_self_nonneg (d 1), mul_self_nonneg (d 2)]
  have key : ∀ (ns : List Nat) (a : ℝ), ns.foldl (fun m j =>
      let d := C.x j - C.x p
      let zetaSquared := d 0 * d 0 + d 1 * d 1 + d 2 * d 2
      m + C.omega (Real.sqrt zetaSquared) C.horizon * zetaSquared * C.v j) a =
      a + (ns.map fun j =>
        C.omega (len (C.x j - C.x p)) C.horizon * len (C.x j - C.x p) ^ 2 * C.v j).sum := by
    intro ns
    induction ns with
    | nil => intro a; simp
    | cons j ns ih =>
      intro a
      rw [List.foldl_cons, ih, List.map_cons, List.sum_cons, hsq]
      simp only [len]
      ring
  rw [weightedVolumeAt, key, zero_add]

/-- C22: a point none of whose neighbors has negative volume or influence, and one of whose neighbors has
positive volume and influence and does not coincide with it, has positive weighted volume. -/
theorem C22_positive (C : Config) (p : Nat) (ns : List Nat)
    (h0 : ∀ j ∈ ns, 0 ≤ C.v j ∧ 0 ≤ C.omega (len (C.x j - C.x p)) C.horizon)
    (h1 : ∃ j ∈ ns, 0 < C.v j ∧ 0 < C.omega (len (C.x j - C.x p)) C.horizon ∧ C.x j ≠ C.x p) :
    0 < weightedVolumeAt C p ns := by
  rw [weightedVolumeAt_eq]
  obtain ⟨j, hj, hv, ho, hx⟩ := h1
  have hnn : ∀ t ∈ ns.map (fun j =>
      C.omega (len (C.x j - C.x p)) C.horizon * len (C.x j - C.x p) ^ 2 * C.v j), 0 ≤ t := by
    intro t ht
    obtain ⟨i, hi, rfl⟩ := List.mem_map.1 ht
    have := h0 i hi
    exact mul_nonneg (mul_nonneg this.2 (sq_nonneg _)) this.1
  have hpos : 0 < C.omega (len (C.x j - C.x p)) C.horizon * len (C.x j - C.x p) ^ 2 * C.v j := by
    have hl : len (C.x j - C.x p) ≠ 0 := fun h => hx (sub_eq_zero.1 (len_eq_zero.1 h))
    have : 0 < len (C.x j - C.x p) ^ 2 := by positivity
    positivity
  exact lt_of_lt_of_le hpos (List.single_le_sum hnn _ (List.mem_map.2 ⟨j, hj, rfl⟩))

/-- C22: the order of the neighbors is irrelevant. -/
theorem C22_order (C : Config) (p : Nat) (ns ns' : List Nat) (h : ns.Perm ns') :
    weightedVolumeAt C p ns = weightedVolumeAt C p ns' := by
  rw [weightedVolumeAt_eq, weightedVolumeAt_eq]
  exact (h.map _).sum_eq

/-- C22: the loop over all points stores for every owned point the weighted volume of its neighbors, and
leaves the other entries alone. -/
theorem C22_stored (C : Config) (nbs : List (List Nat)) (m : Nat → ℝ) :
    ∃ m', weightedVolumeLoop C (encode nbs) nbs.length 0 0 m = .ok m' ∧
      (∀ p ns, nbs[p]? = some ns → m' p = weightedVolumeAt C p ns) ∧ ∀ p ≥ nbs.length, m' p = m p := by
  have key : ∀ (suf pre : List (List Nat)) (m : Nat → ℝ),
      ∃ m', weightedVolumeLoop C (encode (pre ++ suf)) suf.length pre.length (encode pre).length m = .ok m' ∧
        (∀ q ns, suf[q]? = some ns → m' (pre.length + q) = weightedVolumeAt C (pre.length + q) ns) ∧
        ∀ p, p < pre.length ∨ pre.length + suf.length ≤ p → m' p = m p := by
    intro suf
    induction suf with
    | nil => intro pre m; exact ⟨m, rfl, by simp, fun _ _ => rfl⟩
    | cons ns suf ih =>
      intro pre m
      have hn : neighborsAt (encode (pre ++ ns :: suf)) (encode pre).length = .ok ns := by
        have hlt : pre.length < (pre ++ ns :: suf).length := by simp
        have := neighborsAt_get (pre ++ ns :: suf) pre.length hlt
        simpa using this
      have hr : readAt (encode (pre ++ ns :: suf)) (encode pre).length = .ok ns.length := by
        have e : encode (pre ++ ns :: suf) = encode pre ++ (ns.length :: (ns ++ encode suf)) := by
          simp [encode]
        rw [e, readAt]
        simp
      obtain ⟨m', h1, h2, h3⟩ := ih (pre ++ [ns]) (Function.update m pre.length (weightedVolumeAt C pre.length ns))
      refine ⟨m', ?_, ?_, ?_⟩
      · rw [List.length_cons, weightedVolumeLoop, hr, hn]
        simp only
        have el : (encode (pre ++ [ns])).length = (encode pre).length + (ns.length + 1) := by
          simp [encode]
        have ep : pre ++ ns :: suf = (pre ++ [ns]) ++ suf := by simp
        rw [ep]
        rw [List.length_append, List.length_singleton, el] at h1
        exact h1
      · intro q ns' hq
        cases q with
        | zero =>
          simp at hq
          subst hq
          rw [Nat.add_zero, h3 pre.length (Or.inl (by simp))]
          simp
        | succ q =>
          have := h2 q ns' (by simpa using hq)
          simp only [List.length_append, List.length_singleton] at this
          have e : pre.length + (q + 1) = pre.length + 1 + q := by omega
          rw [e]
          exact this
      · intro p hp
        have hp' : p ≠ pre.length := by
          rcases hp with h | h
          · omega
          · simp at h; omega
        rw [h3 p (by simp at hp ⊢; omega), Function.update_of_ne hp']
  obtain ⟨m', h1, h2, h3⟩ := key nbs [] m
  refine ⟨m', by simpa using h1, ?_, ?_⟩
  · intro p ns hp
    simpa using h2 p ns hp
  · intro p hp
    exact h3 p (Or.inr (by simpa using hp))

example : 0 < weightedVolumeAt demo 1 [0, 2] := by
  apply C22_positive
  · intro j _
    exact ⟨by simp only [demo]; positivity, by norm_num [demo]⟩
  · refine ⟨0, by simp, by norm_num [demo], by norm_num [demo], ?_⟩
    intro h
    have := congrFun h 0
    norm_num [demo] at this

end Verif.Mech
