import Verif.Fad.PlasticSpec
import Verif.Fad.WholeProps

/-! Lemmas on the tangent of the elastic-plastic material. -/

noncomputable section

namespace Verif.Fad

open Verif Verif.Neigh Verif.Mech Verif.Tangent Verif.Energy Verif.Lps
open scoped Classical Topology

/-! ### Closed forms of the kernel with `double` -/

/-- Trial extension. -/
def trialOf (C : Config) (edp : Nat → ℝ) (th : ℝ) (b : Bond) : ℝ := C.dY b - C.zeta b - th * C.zeta b / 3 - edp b.b

/-- Squared norm of the trial state. -/
def normOf (C : Config) (edp : Nat → ℝ) (alpha th : ℝ) (bs : List Bond) : ℝ :=
  (bs.map fun b => ((1 - C.damage b.b) * alpha * trialOf C edp th b) ^ 2 * C.v b.j).sum

/-- Deviatoric force state; `norm` is `none` in an elastic step. -/
def tdOf (yv alpha : ℝ) (norm : Option ℝ) (e : ℝ) : ℝ :=
  match norm with
  | none => alpha * e
  | some n => Real.sqrt (2 * yv) * (alpha * e) / n

/-- Scalar force. -/
def tensionOf (C : Config) (P : PlasticConst) (edp : Nat → ℝ) (yv th : ℝ) (norm : Option ℝ) (b : Bond) : ℝ :=
  (1 - C.damage b.b) * (3 * P.K * th / C.m b.i * C.zeta b + (1 - C.damage b.b) *
    tdOf yv (15 * P.mu / C.m b.i) norm (trialOf C edp th b))

/-- Pair force. -/
def pairOf (C : Config) (P : PlasticConst) (edp : Nat → ℝ) (yv th : ℝ) (norm : Option ℝ) (b : Bond) : V3 :=
  (tensionOf C P edp yv th norm b / C.dY b) • C.yd b

/-- The norm in a plastic step. -/
def stepOf (yv n2 : ℝ) : Option ℝ := if Real.sqrt n2 * Real.sqrt n2 / 2 - yv > 0 then some (Real.sqrt n2) else none

theorem deviatoricNorm_eq (C : Config) (theta edp : Nat → ℝ) (alpha : ℝ) {th : ℝ} : ∀ {bs : List Bond},
    (∀ b ∈ bs, theta b.i = th) → deviatoricNorm C theta edp alpha bs = Real.sqrt (normOf C edp alpha th bs) := by
  intro bs hb
  unfold deviatoricNorm normOf
  congr 1
  have gen : ∀ (l : List Bond) (a : ℝ), (∀ b ∈ l, theta b.i = th) → l.foldl (fun norm b =>
      let d := 1 - C.damage b.b
      let tdTrial := d * alpha * 1 * (edState C theta b - edp b.b)
      norm + tdTrial * tdTrial * C.v b.j) a = a + (l.map fun b => ((1 - C.damage b.b) * alpha * trialOf C edp th b) ^ 2 * C.v b.j).sum := by
    intro l
    induction l with
    | nil => intro a _; simp
    | cons b l ih =>
      intro a hl
      rw [List.foldl_cons, ih _ fun b hb => hl b (List.mem_cons_of_mem _ hb), List.map_cons, List.sum_cons]
      unfold trialOf edState
      rw [hl b List.mem_cons_self]
      ring
  rw [gen bs 0 hb, zero_add]

theorem plasticInner_eq {C : Config} {P : PlasticConst} {yv th : ℝ} {theta edp : Nat → ℝ} {fl : Flow} {norm : Option ℝ}
    (hfl : (fl.deltaLambda = none ∧ norm = none) ∨ (∃ dl, fl.deltaLambda = some dl) ∧ norm = some fl.tdNorm ∧ fl.tdNorm ≠ 0) :
    ∀ {bs : List Bond} (s : PlasticState), (∀ b ∈ bs, theta b.i = th ∧ C.dY b ≠ 0) →
    ∃ s', plasticInner C P yv theta edp fl bs s = .ok s' ∧
      ∀ p, s'.F p = s.F p + (bs.map fun b => pull (selfVol C) (nbrVol C) p (b, pairOf C P edp yv th norm b)).sum
  | [], s, _ => ⟨s, rfl, fun p => by simp⟩
  | b :: bs, s, hb => by
    obtain ⟨ht, hd⟩ := hb b List.mem_cons_self
    have hu : ∃ e, plasticUpdate C P yv theta edp fl b = .ok (tdOf yv (15 * P.mu / C.m b.i) norm (trialOf C edp th b), e) := by
      unfold plasticUpdate
      rcases hfl with ⟨h1, rfl⟩ | ⟨⟨dl, h1⟩, rfl, h3⟩
      · rw [h1]
        refine ⟨edp b.b, ?_⟩
        simp only [tdOf]
        congr 2
        unfold edState trialOf
        rw [ht]
        ring
      · rw [h1]
        simp only
        rw [if_neg h3]
        refine ⟨edp b.b + Real.sqrt (2 * yv) * (15 * P.mu / C.m b.i * 1 * (edState C theta b - edp b.b)) / fl.tdNorm * dl, ?_⟩
        simp only [tdOf]
        congr 2
        unfold edState trialOf
        rw [ht]
        ring
    obtain ⟨e, hu⟩ := hu
    have hp : plasticBond C P theta (tdOf yv (15 * P.mu / C.m b.i) norm (trialOf C edp th b)) b =
        .ok (pairOf C P edp yv th norm b) := by
      unfold plasticBond Mech.along
      simp only
      rw [if_neg hd]
      congr 1
      funext c
      unfold pairOf tensionOf
      rw [Pi.smul_apply, smul_eq_mul, ht]
      ring
    rw [plasticInner, hu]
    simp only
    rw [hp]
    simp only
    obtain ⟨s', h1, h2⟩ := plasticInner_eq hfl { s with
        edp := Function.update s.edp b.b e
        F := scatterStep (selfVol C) (nbrVol C) s.F b (pairOf C P edp yv th norm b) } fun b hb' => hb b (List.mem_cons_of_mem _ hb')
    refine ⟨s', h1, fun p => ?_⟩
    rw [h2]
    simp only
    rw [scatterStep_apply, List.map_cons, List.sum_cons, add_assoc]

/-- The force density in closed form. -/
def plasticValue (S : PlasticSolid) (yv : ℝ) (gids : List Nat) (y : Nat → ℝ) (norm : Option ℝ) (k : Nat) : ℝ :=
  ((bondsOf (hoodNbs (gids.length - 1))).map fun b => pull (selfVol (S.local gids y)) (nbrVol (S.local gids y)) (k / 3)
    (b, pairOf (S.local gids y) S.const (S.edp (gids.getD 0 0)) yv (theta' (S.local gids y) (hoodNbs (gids.length - 1)) 0) norm b)).sum
      ⟨k % 3, Nat.mod_lt _ (by omega)⟩

/-- The squared norm of the trial state in the neighborhood. -/
def hoodNorm (S : PlasticSolid) (gids : List Nat) (y : Nat → ℝ) : ℝ :=
  normOf (S.local gids y) (S.edp (gids.getD 0 0)) (15 * S.mu / (S.local gids y).m 0)
    (theta' (S.local gids y) (hoodNbs (gids.length - 1)) 0) (bondsOf (hoodNbs (gids.length - 1)))

theorem normOf_alpha_zero {C : Config} {edp : Nat → ℝ} {th : ℝ} (bs : List Bond) : normOf C edp 0 th bs = 0 := by
  unfold normOf
  apply List.sum_eq_zero
  intro x hx
  obtain ⟨b, _, rfl⟩ := List.mem_map.1 hx
  simp

theorem plasticKernel_ok {S : PlasticSolid} {yv : ℝ} {gids : List Nat} {y : Nat → ℝ} (v : Nat → ℝ)
    (hyv : yieldValue S.const S.horizon = .ok yv) (h0 : 0 < yv) (hm : (S.local gids y).m 0 ≠ 0)
    (hd : ∀ b ∈ bondsOf (hoodNbs (gids.length - 1)), (S.local gids y).dY b ≠ 0) :
    plasticKernel S gids y v = .ok (plasticValue S yv gids y (stepOf yv (hoodNorm S gids y))) := by
  have hloc : ({ S.local gids y with thermal := none } : Config) = S.local gids y := rfl
  have hbi : ∀ b ∈ bondsOf (hoodNbs (gids.length - 1)), b.i = 0 := fun b hb => (hood_bond hb).1
  obtain ⟨theta, ht⟩ := dilatationLoop_ok (C := S.local gids y) (bs := bondsOf (hoodNbs (gids.length - 1)))
    (fun b hb => by rw [hbi b hb]; exact hm) (fun p => if p < 1 then 0 else 0)
  have hdil : Mech.dilatation (S.local gids y) 1 (tempList (gids.length - 1)) (fun _ => 0) = .ok theta := by
    unfold Mech.dilatation
    rw [visited_temp]
    exact ht
  have hth : theta 0 = theta' (S.local gids y) (hoodNbs (gids.length - 1)) 0 := by
    have := hdil
    rw [tempList_eq] at this
    exact dilatation_eq (nbs := hoodNbs (gids.length - 1)) this (by simp)
  have hnorm := deviatoricNorm_eq (S.local gids y) theta (S.edp (gids.getD 0 0)) (15 * S.mu / (S.local gids y).m 0)
    (th := theta 0) (bs := bondsOf (hoodNbs (gids.length - 1))) (fun b hb => by rw [hbi b hb])
  rw [hth] at hnorm
  have hpos : ∀ n2 : ℝ, Real.sqrt n2 * Real.sqrt n2 / 2 - yv > 0 → Real.sqrt n2 ≠ 0 := by
    intro n2 h h1
    rw [h1] at h
    linarith
  obtain ⟨fl, hfl, hfl'⟩ : ∃ fl : Flow, plasticFlow (S.local gids y) S.const yv theta (S.edp (gids.getD 0 0)) 0
      (bondsOf (hoodNbs (gids.length - 1))) = .ok fl ∧
      ((fl.deltaLambda = none ∧ stepOf yv (hoodNorm S gids y) = none) ∨ (∃ dl, fl.deltaLambda = some dl) ∧
        stepOf yv (hoodNorm S gids y) = some fl.tdNorm ∧ fl.tdNorm ≠ 0) := by
    unfold plasticFlow
    rw [if_neg hm]
    simp only
    rw [show S.const.mu = S.mu from rfl, hnorm]
    unfold stepOf hoodNorm
    split
    · next hf =>
      rw [if_neg]
      · exact ⟨_, rfl, .inr ⟨⟨_, rfl⟩, rfl, hpos _ hf⟩⟩
      · rintro (h | h)
        · exact sqrt_two_yv h0 h
        · rw [h, normOf_alpha_zero] at hf
          simp at hf
          linarith
    · exact ⟨_, rfl, .inl ⟨rfl, rfl⟩⟩
  obtain ⟨s', h1, h2⟩ := plasticInner_eq (C := S.local gids y) (P := S.const) (yv := yv) (th := theta 0) (theta := theta)
    (edp := S.edp (gids.getD 0 0)) hfl' (bs := bondsOf (hoodNbs (gids.length - 1)))
    { edp := fun _ => 0, lambda := Function.update (fun _ => 0) 0 (fl.newLambda 0), F := 0 }
    (fun b hb => ⟨by rw [hbi b hb], hd b hb⟩)
  have hmat : plasticMaterial (S.local gids y) S.const 1 (tempList (gids.length - 1)) (fun _ => 0) (S.edp (gids.getD 0 0)) (fun _ => 0)
      ⟨fun _ => 0, fun _ => 0, fun _ _ => 0⟩ = .ok (theta, s') := by
    unfold plasticMaterial
    rw [hloc, hdil]
    simp only
    unfold plasticForce
    rw [show (S.local gids y).horizon = S.horizon from rfl, hyv]
    simp only
    rw [visited_temp]
    simp only
    rw [show List.range 1 = [0] from rfl]
    unfold plasticPoints
    simp only
    rw [filter_hood, hfl]
    simp only
    rw [h1]
    simp only
    unfold plasticPoints
    rfl
  unfold plasticKernel
  rw [hmat, Outcome.ok_bind]
  congr 1
  funext k
  rw [h2]
  unfold plasticValue
  rw [hth]
  simp only [Pi.zero_apply, zero_add]

/-! ### The kernel with derivatives -/

section track

variable {C0 : Config} {Y : Nat → Num3} {Cs : ℝ → Config} {c : Nat}

/-- Both steps are elastic, or both plastic and the norm is tracked. -/
def TracksStep (c : Nat) (φ : ℝ → Option ℝ) (a : Option Num) : Prop :=
  (a = none ∧ φ = fun _ => none) ∨ ∃ n ψ, a = some n ∧ φ = (fun s => some (ψ s)) ∧ Tracks c ψ n

theorem trial_tracks (H : Varies c C0 Y Cs) {edp : Nat → ℝ} {th : Num} {theta : ℝ → ℝ} (ht : Tracks c theta th) {b : Bond} {l : Num}
    (h : bondLength Y b = some l) : Tracks c (fun s => trialOf (Cs s) edp (theta s) b) (trialExtension C0 edp th l b) := by
  have hl := bondLength_tracks H h
  refine (((hl.minus (C0.zeta b)).sub ((ht.scale (C0.zeta b)).scale (1 / 3))).minus (edp b.b)).of_eq fun s => ?_
  unfold trialOf
  rw [H.zeta]
  ring

theorem normSquared_tracks (H : Varies c C0 Y Cs) {edp : Nat → ℝ} {alpha : ℝ} {th : Num} {theta : ℝ → ℝ} (ht : Tracks c theta th) :
    ∀ {bs : List Bond} {n q : Num} {φ : ℝ → ℝ}, Tracks c φ n → normSquared C0 Y edp alpha th bs n = some q →
    Tracks c (fun s => φ s + normOf (Cs s) edp alpha (theta s) bs) q
  | [], n, q, φ, hn, h => by
    cases h
    exact hn.of_eq fun s => by simp [normOf]
  | b :: bs, n, q, φ, hn, h => by
    rw [normSquared] at h
    obtain ⟨l, hl, h⟩ := Option.bind_eq_some_iff.1 h
    have he := (trial_tracks H (edp := edp) ht hl).scale ((1 - C0.damage b.b) * alpha * 1)
    have := normSquared_tracks H ht (hn.add ((he.mul he).scale (C0.v b.j))) h
    refine this.of_eq fun s => ?_
    unfold normOf
    rw [List.map_cons, List.sum_cons, H.damage, H.v]
    ring

theorem td_tracks {yv alpha : ℝ} {e : Num} {φ : ℝ → ℝ} (he : Tracks c φ e) {norm : ℝ → Option ℝ} {a : Option Num}
    (ha : TracksStep c norm a) {q : Num} (h : deviatoricForce yv alpha a e = some q) :
    Tracks c (fun s => tdOf yv alpha (norm s) (φ s)) q := by
  unfold deviatoricForce at h
  rcases ha with ⟨rfl, rfl⟩ | ⟨n, ψ, rfl, rfl, hn⟩
  · simp only at h
    rw [← Option.some.inj h]
    refine (he.scale (alpha * 1)).of_eq fun s => ?_
    simp only [tdOf]
    ring
  · simp only at h
    refine (((he.scale (alpha * 1)).scale (Real.sqrt (2 * yv))).div hn h).of_eq fun s => ?_
    simp only [tdOf]
    ring

theorem plasticPair_tracks (H : Varies c C0 Y Cs) {P : PlasticConst} {edp : Nat → ℝ} {yv : ℝ} {th : Num} {theta : ℝ → ℝ}
    (ht : Tracks c theta th) {norm : ℝ → Option ℝ} {a : Option Num} (ha : TracksStep c norm a) {b : Bond} {f : Num3}
    (h : plasticPair C0 P Y edp yv th a b = some f) (k : Fin 3) :
    Tracks c (fun s => pairOf (Cs s) P edp yv (theta s) (norm s) b k) (f k) := by
  unfold plasticPair at h
  obtain ⟨l, hl, h⟩ := Option.bind_eq_some_iff.1 h
  obtain ⟨td, htd, h⟩ := Option.bind_eq_some_iff.1 h
  obtain ⟨fx, h0, h⟩ := Option.bind_eq_some_iff.1 h
  obtain ⟨fy, h1, h⟩ := Option.bind_eq_some_iff.1 h
  obtain ⟨fz, h2, h⟩ := Option.bind_eq_some_iff.1 h
  have e := Option.some.inj h
  have hL := bondLength_tracks H hl
  have hv := bondVector_tracks H b
  have hD := td_tracks (trial_tracks H (edp := edp) ht hl) ha htd
  have hT := (((((ht.scale (3 * P.K)).scale 1).scale (1 / C0.m b.i)).scale (C0.zeta b)).add
    (hD.scale (1 - C0.damage b.b))).scale (1 - C0.damage b.b)
  have hten : ∀ s, tensionOf (Cs s) P edp yv (theta s) (norm s) b = (1 - C0.damage b.b) * (C0.zeta b * (1 / C0.m b.i *
      (1 * (3 * P.K * theta s))) + (1 - C0.damage b.b) * tdOf yv (15 * P.mu / C0.m b.i) (norm s) (trialOf (Cs s) edp (theta s) b)) := by
    intro s
    unfold tensionOf
    rw [H.zeta, H.m, H.damage]
    ring
  have key : ∀ (k : Fin 3) (q : Num), Tracks c (fun s => tensionOf (Cs s) P edp yv (theta s) (norm s) b * (Cs s).yd b k / (Cs s).dY b) q →
      Tracks c (fun s => pairOf (Cs s) P edp yv (theta s) (norm s) b k) q := by
    intro k q hq
    refine hq.of_eq fun s => ?_
    unfold pairOf
    rw [Pi.smul_apply, smul_eq_mul]
    ring
  subst e
  fin_cases k
  · exact key 0 _ (((hT.of_eq hten).mul (hv 0)).div hL h0)
  · exact key 1 _ (((hT.of_eq hten).mul (hv 1)).div hL h1)
  · exact key 2 _ (((hT.of_eq hten).mul (hv 2)).div hL h2)

theorem plasticForces_tracks (H : Varies c C0 Y Cs) {P : PlasticConst} {edp : Nat → ℝ} {yv : ℝ} {th : Num} {theta : ℝ → ℝ}
    (ht : Tracks c theta th) {norm : ℝ → Option ℝ} {a : Option Num} (ha : TracksStep c norm a) :
    ∀ {bs : List Bond} {F R : Nat → Num3} {G : ℝ → Nat → V3}, (∀ p k, Tracks c (fun s => G s p k) (F p k)) →
    plasticForces C0 P Y edp yv th a bs F = some R → ∀ p k,
    Tracks c (fun s => (G s p + (bs.map fun b => pull (selfVol (Cs s)) (nbrVol (Cs s)) p
      (b, pairOf (Cs s) P edp yv (theta s) (norm s) b)).sum) k) (R p k)
  | [], F, R, G, hF, h, p, k => by
    cases h
    exact (hF p k).of_eq fun s => by simp
  | b :: bs, F, R, G, hF, h, p, k => by
    rw [plasticForces] at h
    obtain ⟨f, hf, h⟩ := Option.bind_eq_some_iff.1 h
    have := plasticForces_tracks H ht ha (G := fun s p => G s p + pull (selfVol (Cs s)) (nbrVol (Cs s)) p
      (b, pairOf (Cs s) P edp yv (theta s) (norm s) b))
      (addForce_tracks H (plasticPair_tracks H ht ha hf) hF) h p k
    refine this.of_eq fun s => ?_
    rw [List.map_cons, List.sum_cons, add_assoc]

end track

theorem local_varies (S : PlasticSolid) (gids : List Nat) (y : Nat → ℝ) (c : Nat) :
    Varies c (S.local gids y) (independent y) fun s => S.local gids (bump y c s) where
  zeta _ _ := rfl
  om _ _ := rfl
  m _ _ := rfl
  v _ _ := rfl
  damage _ _ := rfl
  thermal _ := rfl
  y i k := var_tracks y c i k

end Verif.Fad
