import Verif.Mech.Defined
import Mathlib.LinearAlgebra.Matrix.DotProduct
import Mathlib.Data.Matrix.Mul

/-! Lemmas for C19 and C20: the kernels under a rigid motion of the deformed configuration. -/

noncomputable section

namespace Verif.Mech

open Verif Verif.Neigh Matrix

theorem len_eq_dot (d : V3) : len d = Real.sqrt (d ⬝ᵥ d) := by
  unfold len
  congr 1
  simp [dotProduct, Fin.sum_univ_three]

theorem len_rot (Q : Matrix (Fin 3) (Fin 3) ℝ) (hQ : Qᵀ * Q = 1) (d : V3) : len (Q *ᵥ d) = len d := by
  rw [len_eq_dot, len_eq_dot, Matrix.dotProduct_mulVec, Matrix.vecMul_mulVec, hQ, Matrix.vecMul_one]

theorem moved_sub (Q : Matrix (Fin 3) (Fin 3) ℝ) (c : V3) (y : Nat → V3) (i j : Nat) :
    moved Q c y j - moved Q c y i = Q *ᵥ (y j - y i) := by
  unfold moved
  rw [Matrix.mulVec_sub]
  abel

/-- The configuration with moved positions. -/
def Config.move (C : Config) (Q : Matrix (Fin 3) (Fin 3) ℝ) (c : V3) : Config :=
  { C with y := moved Q c C.y }

variable {Q : Matrix (Fin 3) (Fin 3) ℝ} (hQ : Qᵀ * Q = 1) (c : V3) (C : Config)

theorem move_yd (Q : Matrix (Fin 3) (Fin 3) ℝ) (b : Bond) : (C.move Q c).yd b = Q *ᵥ C.yd b :=
  moved_sub Q c C.y b.i b.j

include hQ in
theorem move_dY (b : Bond) : (C.move Q c).dY b = C.dY b := by
  unfold Config.dY
  rw [move_yd, len_rot Q hQ]

include hQ in
theorem move_ext (b : Bond) : (C.move Q c).ext b = C.ext b := by
  unfold Config.ext
  rw [move_dY hQ]
  rfl

include hQ in
theorem move_dilatation (n : Nat) (l : List Nat) (th : Nat → ℝ) :
    dilatation (C.move Q c) n l th = dilatation C n l th := by
  have h1 : ∀ b, dilatationTerm (C.move Q c) b = dilatationTerm C b := by
    intro b
    unfold dilatationTerm
    rw [move_ext hQ]
    rfl
  have h2 : ∀ bs th, dilatationLoop (C.move Q c) bs th = dilatationLoop C bs th := by
    intro bs
    induction bs with
    | nil => intro _; rfl
    | cons b bs ih =>
      intro th
      simp only [dilatationLoop, h1, ih]
  unfold dilatation
  simp only [h2]

/-- Rotate the result of a kernel. -/
def rotateOut (Q : Matrix (Fin 3) (Fin 3) ℝ) (o : Outcome V3) : Outcome V3 := o.map (Q *ᵥ ·)

include hQ in
theorem move_along (b : Bond) (t : ℝ) : along (C.move Q c) b t = rotateOut Q (along C b t) := by
  unfold along
  rw [move_dY hQ]
  split
  · rfl
  · simp only [rotateOut, Outcome.map]
    congr 1
    have e : (fun k => t * C.yd b k / C.dY b) = (t / C.dY b) • C.yd b := by
      funext k; simp; ring
    rw [e, Matrix.mulVec_smul, ← move_yd]
    funext k; simp; ring

theorem scatterStep_rot (vi vj : Bond → ℝ) (F : Nat → V3) (b : Bond) (g : V3) :
    scatterStep vi vj (fun k => Q *ᵥ F k) b (Q *ᵥ g) = fun k => Q *ᵥ scatterStep vi vj F b g k := by
  funext k
  rw [scatterStep_apply, scatterStep_apply, Matrix.mulVec_add]
  congr 1
  unfold pull
  rw [Matrix.mulVec_sub]
  congr 1
  · split
    · rw [Matrix.mulVec_smul]
    · rw [Matrix.mulVec_zero]
  · split
    · rw [Matrix.mulVec_smul]
    · rw [Matrix.mulVec_zero]

theorem scatter_rot (vi vj : Bond → ℝ) (f f' : Bond → Outcome V3) (h : ∀ b, f' b = rotateOut Q (f b))
    (bs : List Bond) (F : Nat → V3) :
    scatter vi vj f' bs (fun k => Q *ᵥ F k) =
      (scatter vi vj f bs F).map fun R k => Q *ᵥ R k := by
  induction bs generalizing F with
  | nil => rfl
  | cons b bs ih =>
    rw [scatter, scatter, h]
    cases f b with
    | ok g => simp only [rotateOut, Outcome.map]; rw [scatterStep_rot, ih]; rfl
    | fail e => rfl
    | ub => rfl

theorem rot_zero : (fun k => Q *ᵥ ((0 : Nat → V3) k)) = 0 := by
  funext k
  exact Matrix.mulVec_zero Q

theorem kernel_rot (vi vj : Bond → ℝ) (f f' : Bond → Outcome V3) (h : ∀ b, f' b = rotateOut Q (f b))
    (n : Nat) (l : List Nat) :
    kernel vi vj f' n l 0 = (kernel vi vj f n l 0).map fun R k => Q *ᵥ R k := by
  unfold kernel
  cases visitedBonds n l with
  | ok bs =>
    simp only
    rw [← scatter_rot vi vj f f' h bs 0, rot_zero]
  | fail e => rfl
  | ub => rfl

include hQ in
theorem move_elasticBond (K mu : ℝ) (theta : Nat → ℝ) (b : Bond) :
    elasticBond (C.move Q c) K mu theta b = rotateOut Q (elasticBond C K mu theta b) := by
  unfold elasticBond
  have hm : (C.move Q c).m = C.m := rfl
  rw [hm]
  split
  · rfl
  · simp only
    rw [← move_along hQ c, move_ext hQ]
    rfl

include hQ in
theorem move_bondBasedBond (k : ℝ) (b : Bond) :
    bondBasedBond (C.move Q c) k b = rotateOut Q (bondBasedBond C k b) := by
  unfold bondBasedBond
  have hz : (C.move Q c).zeta b = C.zeta b := rfl
  rw [hz]
  split
  · rfl
  · simp only
    rw [← move_along hQ c, move_dY hQ]
    rfl

/-! ### Elastic-plastic -/

/-- Rotate the force in the result of the elastic-plastic kernel. -/
def PlasticState.rot (Q : Matrix (Fin 3) (Fin 3) ℝ) (s : PlasticState) : PlasticState :=
  { s with F := fun k => Q *ᵥ s.F k }

include hQ in
theorem move_edState (theta : Nat → ℝ) (b : Bond) : edState (C.move Q c) theta b = edState C theta b := by
  unfold edState
  rw [move_dY hQ]
  rfl

include hQ in
theorem move_flow (P : PlasticConst) (yv : ℝ) (theta edpN : Nat → ℝ) (p : Nat) (bs : List Bond) :
    plasticFlow (C.move Q c) P yv theta edpN p bs = plasticFlow C P yv theta edpN p bs := by
  unfold plasticFlow deviatoricNorm
  simp only [move_edState hQ]
  rfl

include hQ in
theorem move_plasticInner (P : PlasticConst) (yv : ℝ) (theta edpN : Nat → ℝ) (fl : Flow)
    (bs : List Bond) (s : PlasticState) :
    plasticInner (C.move Q c) P yv theta edpN fl bs (s.rot Q) =
      (plasticInner C P yv theta edpN fl bs s).map (PlasticState.rot Q) := by
  induction bs generalizing s with
  | nil => rfl
  | cons b bs ih =>
    rw [plasticInner, plasticInner]
    have hu : plasticUpdate (C.move Q c) P yv theta edpN fl b = plasticUpdate C P yv theta edpN fl b := by
      unfold plasticUpdate
      simp only [move_edState hQ]
      rfl
    rw [hu]
    cases plasticUpdate C P yv theta edpN fl b with
    | ok u =>
      obtain ⟨td, edp'⟩ := u
      simp only
      have hb : plasticBond (C.move Q c) P theta td b = rotateOut Q (plasticBond C P theta td b) := by
        unfold plasticBond
        simp only
        rw [← move_along hQ c]
        rfl
      rw [hb]
      cases plasticBond C P theta td b with
      | ok f =>
        simp only [rotateOut, Outcome.map]
        have := ih { s with
            edp := Function.update s.edp b.b edp'
            F := scatterStep (selfVol C) (nbrVol C) s.F b f }
        simp only [PlasticState.rot, ← scatterStep_rot] at this
        exact this
      | fail e => rfl
      | ub => rfl
    | fail e => rfl
    | ub => rfl

include hQ in
theorem move_plasticPoints (P : PlasticConst) (yv : ℝ) (theta edpN lambdaN : Nat → ℝ)
    (bonds : List Bond) (ps : List Nat) (s : PlasticState) :
    plasticPoints (C.move Q c) P yv theta edpN lambdaN bonds ps (s.rot Q) =
      (plasticPoints C P yv theta edpN lambdaN bonds ps s).map (PlasticState.rot Q) := by
  induction ps generalizing s with
  | nil => rfl
  | cons p ps ih =>
    rw [plasticPoints, plasticPoints, move_flow hQ]
    cases plasticFlow C P yv theta edpN p (bonds.filter fun b => b.i = p) with
    | ok fl =>
      simp only
      have h1 := move_plasticInner hQ c C P yv theta edpN fl (bonds.filter fun b => b.i = p)
        { s with lambda := Function.update s.lambda p (fl.newLambda (lambdaN p)) }
      simp only [PlasticState.rot] at h1 ⊢
      rw [h1]
      cases plasticInner C P yv theta edpN fl (bonds.filter fun b => b.i = p)
          { s with lambda := Function.update s.lambda p (fl.newLambda (lambdaN p)) } with
      | ok s1 => exact ih s1
      | fail e => rfl
      | ub => rfl
    | fail e => rfl
    | ub => rfl

/-! ### Viscoelastic -/

theorem move_viscoEd {Q' : Matrix (Fin 3) (Fin 3) ℝ} (hQ' : Q'ᵀ * Q' = 1) (c' : V3) (y : Nat → V3)
    (theta : Nat → ℝ) (b : Bond) :
    viscoEd (C.move Q c) (moved Q' c' y) theta b = viscoEd C y theta b := by
  unfold viscoEd
  rw [moved_sub, len_rot Q' hQ']
  rfl

include hQ in
theorem move_viscoLoop {Q' : Matrix (Fin 3) (Fin 3) ℝ} (hQ' : Q'ᵀ * Q' = 1) (c' : V3)
    (P : ViscoConst) (decay beta : ℝ) (yN : Nat → V3) (thetaN theta edbN : Nat → ℝ) (bs : List Bond)
    (s : (Nat → ℝ) × (Nat → V3)) :
    viscoLoop (C.move Q c) P decay beta (moved Q' c' yN) thetaN theta edbN bs
        (s.1, fun k => Q *ᵥ s.2 k) =
      (viscoLoop C P decay beta yN thetaN theta edbN bs s).map
        fun r => (r.1, fun k => Q *ᵥ r.2 k) := by
  induction bs generalizing s with
  | nil => rfl
  | cons b bs ih =>
    rw [viscoLoop, viscoLoop]
    rw [move_viscoEd c C hQ' c' yN thetaN b]
    have e2 : viscoEd (C.move Q c) (C.move Q c).y theta b = viscoEd C C.y theta b :=
      move_viscoEd c C hQ c C.y theta b
    rw [e2]
    have hb : ∀ a d, viscoBond (C.move Q c) P theta a d b = rotateOut Q (viscoBond C P theta a d b) := by
      intro a d
      unfold viscoBond
      have hm : (C.move Q c).m = C.m := rfl
      rw [hm]
      split
      · rfl
      · simp only
        rw [← move_along hQ c]
        rfl
    simp only
    rw [hb]
    cases viscoBond C P theta (viscoEd C C.y theta b) (viscoBack decay beta (viscoEd C yN thetaN b)
        (viscoEd C C.y theta b) (edbN b.b)) b with
    | ok f =>
      simp only [rotateOut, Outcome.map]
      have := ih (Function.update s.1 b.b (viscoBack decay beta (viscoEd C yN thetaN b)
        (viscoEd C C.y theta b) (edbN b.b)), scatterStep (selfVol C) (nbrVol C) s.2 b f)
      simp only [← scatterStep_rot] at this
      exact this
    | fail e => rfl
    | ub => rfl

end Verif.Mech
