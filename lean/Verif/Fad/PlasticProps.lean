import Verif.Fad.PlasticTangent
import Verif.Fad.SymProps

/-! # Property theorems: the tangent of the elastic-plastic material (C220–C222) -/

noncomputable section

namespace Verif.Fad

open Verif Verif.Neigh Verif.Mech Verif.Tangent Verif.Energy Verif.Lps
open scoped Classical Topology

theorem plasticJacobian_ad {P : Settings} {kind : Kind} {E : PlasticSolid} {Q : FluxKernel} {F : Fields} {S : Scratch} {prs : List Proc}
    {M A : Sparse} : elasticPlasticJacobian none P kind E Q F S prs M = .ok A ↔ adTangent .full (plasticAd E) F S prs M = .ok A :=
  plasticTangent_iff

/-! ### C220 -/

/-- **C220** Where no point is on its yield surface the tangent of the elastic-plastic material is the derivative of the
internal force: near the present configuration all forces exist, and the entry for two components is the derivative of the one
force by the other coordinate, whether points yield or not. -/
theorem C220_consistent_tangent (E : PlasticSolid) (hE : E.Ductile) (P : Settings) (kind : Kind) (Q : FluxKernel) (F : Fields)
    (S : Scratch) (parts : List Part) (hv : ∀ p ∈ parts, p.Valid) (hn : ∀ h ∈ allHoods parts, h.Nodup)
    (hy : ∀ h ∈ allHoods parts, ¬ E.AtYield F.y h) (R : Nat → Finset Nat) (A : Sparse)
    (h : elasticPlasticJacobian none P kind E Q F S (parts.map Part.proc) (Sparse.zero R) = .ok A) (r c : Nat) :
    IsDerivative (plasticKernel E) F (allHoods parts) r c (A.val r c) := by
  obtain ⟨h1, h2⟩ := adTangent_ok (kind := .full) hv hn (plasticJacobian_ad.1 h)
  obtain ⟨hyv, hpos⟩ := yieldLimit_ok hE
  have hd : ∀ g ∈ allHoods parts, _ := fun g hg => entry_derivative (K := plasticKernel E) (hn g hg) (h1 g hg).choose_spec
    (fun c => plastic_lifts hE.v (h1 g hg).choose_spec hyv hpos (by rw [trial_eq (allHoods_pos hv hg)]; exact hy g hg) c _) r c
  refine ⟨fun s r => ((allHoods parts).map fun h => hoodForce (plasticKernel E) (bump F.y c s) F.v h r).sum, ?_, ?_⟩
  · filter_upwards [eventually_all fun g hg => (hd g hg).1] with s hs
    exact internalForce_ok hs
  · rw [h2]
    have := sum_derivative (hs := allHoods parts) (v := F.vol (r / 3)) fun g hg => (hd g hg).2
    refine this.congr_deriv ?_
    simp only [Sparse.zero, zero_add]
    congr 1
    apply List.map_congr_left
    intro g _
    rw [if_pos (show Kept .full r c from trivial)]

/-- **C220** The tangent can be assembled, in the sparsity that is allocated and whatever the scratch matrix holds, exactly if
every point has neighbors, none of them at its own position, and has a weighted volume; also on the yield surface. -/
theorem C220_defined (E : PlasticSolid) (hE : E.Ductile) (P : Settings) (kind : Kind) (Q : FluxKernel) (F : Fields)
    (S : Scratch) (parts : List Part) (hv : ∀ p ∈ parts, p.Valid) (hn : ∀ h ∈ allHoods parts, h.Nodup) :
    (∃ R A, allocate 3 (parts.map Part.proc) = .ok R ∧
      elasticPlasticJacobian none P kind E Q F S (parts.map Part.proc) (Sparse.zero R) = .ok A) ↔
    Joined parts ∧ ∀ h ∈ allHoods parts, E.toSolid.Sound F.y h := by
  obtain ⟨hyv, hpos⟩ := yieldLimit_ok hE
  constructor
  · rintro ⟨R, A, _, h⟩
    have h := plasticJacobian_ad.1 h
    have hj := adTangent_joined hv h
    exact ⟨(joined_iff hv).2 hj, fun g hg =>
      (plasticAd_sound (hj g hg) hyv hpos).1 ((adTangent_ok (kind := .full) hv hn h).1 g hg)⟩
  · rintro ⟨hj, h⟩
    have hj := (joined_iff hv).1 hj
    obtain ⟨R, A, hR, hA⟩ := adTangent_full (A := plasticAd E) (F := F) S hv hn hj
      fun g hg => (plasticAd_sound (hj g hg) hyv hpos).2 (h g hg)
    exact ⟨R, A, hR, plasticJacobian_ad.2 hA⟩

/-- **C220** Off the yield surface the tangent by finite differences tends to it as the perturbation tends to zero. -/
theorem C220_finite_differences (E : PlasticSolid) (hE : E.Ductile) (P : Settings) (hP : Mechanical P) (kind : Kind) (Q : FluxKernel)
    (F : Fields) (S S' : Scratch) (parts : List Part) (hv : ∀ p ∈ parts, p.Valid) (hn : ∀ h ∈ allHoods parts, h.Nodup)
    (hy : ∀ h ∈ allHoods parts, ¬ E.AtYield F.y h) (R R' : Nat → Finset Nat) (A : Sparse) (B : ℝ → Sparse)
    (hA : elasticPlasticJacobian (some true) P kind E Q F S (parts.map Part.proc) (Sparse.zero R) = .ok A)
    (hB : ∀ᶠ e in 𝓝[≠] (0 : ℝ), elasticPlasticJacobian (some false) { P with epsilon := e } kind E Q F S' (parts.map Part.proc)
      (Sparse.zero R') = .ok (B e)) (I J a b : Nat) (ha : a < 3) (hb : b < 3) :
    Filter.Tendsto (fun e => (B e).val (3 * I + a) (3 * J + b)) (𝓝[≠] 0) (𝓝 (A.val (3 * I + a) (3 * J + b))) := by
  obtain ⟨f, hf, hd⟩ := C220_consistent_tangent E hE P kind Q F S parts hv hn hy R A hA (3 * I + a) (3 * J + b)
  have hI : (3 * I + a) / 3 = I := by omega
  rw [hI] at hd
  refine (central_tendsto hd).congr' ?_
  have hneg : ∀ᶠ e in 𝓝 (0 : ℝ), internalForce (plasticKernel E) (bump F.y (3 * J + b) (-e)) F.v (allHoods parts) =
      .ok (f (-e)) := by
    have : Filter.Tendsto (fun e : ℝ => -e) (𝓝 0) (𝓝 0) := by
      simpa using (continuous_neg (G := ℝ)).tendsto 0
    exact this.eventually hf
  have rate : ∀ (Y V V' : Nat → ℝ), internalForce (plasticKernel E) Y V (allHoods parts) =
      internalForce (plasticKernel E) Y V' (allHoods parts) := by
    intro Y V V'
    generalize allHoods parts = hs
    induction hs with
    | nil => rfl
    | cons h hs ih =>
      unfold internalForce
      rw [ih]
      rfl
  filter_upwards [hB, hf.filter_mono nhdsWithin_le_nhds, hneg.filter_mono nhdsWithin_le_nhds] with e h1 h2 h3
  have hP' : Mechanical { P with epsilon := e } := ⟨hP.1, hP.2, hP.3, hP.4⟩
  have := C88_central_difference { P with epsilon := e } hP' (plasticKernel E) Q F S' parts hv hn R' (B e) h1 I J a b ha hb
    (f e) (f (-e)) ((rate _ _ _).trans h2) ((rate _ _ _).trans h3)
  rw [this]
  ring

/-- **C220** The tangent by finite differences does exist for all small perturbations, if that by automatic differentiation
exists and no point is on its yield surface. -/
theorem C220_finite_differences_defined (E : PlasticSolid) (hE : E.Ductile) (P : Settings) (hP : Mechanical P) (ht : P.dt ≠ 0) (kind : Kind) (Q : FluxKernel) (F : Fields)
    (S S' : Scratch) (parts : List Part) (hv : ∀ p ∈ parts, p.Valid) (hn : ∀ h ∈ allHoods parts, h.Nodup)
    (hy : ∀ h ∈ allHoods parts, ¬ E.AtYield F.y h) (R : Nat → Finset Nat) (A : Sparse)
    (hA : elasticPlasticJacobian (some true) P kind E Q F S (parts.map Part.proc) (Sparse.zero R) = .ok A) :
    ∃ (R' : Nat → Finset Nat) (B : ℝ → Sparse), allocate 3 (parts.map Part.proc) = .ok R' ∧ ∀ᶠ e in 𝓝[≠] (0 : ℝ),
      elasticPlasticJacobian (some false) { P with epsilon := e } kind E Q F S' (parts.map Part.proc) (Sparse.zero R') = .ok (B e) := by
  obtain ⟨hyv, hpos⟩ := yieldLimit_ok hE
  obtain ⟨h1, _⟩ := adTangent_ok (kind := .full) hv hn (plasticJacobian_ad.1 hA)
  have hj := (joined_iff hv).2 (adTangent_joined (kind := .full) hv (plasticJacobian_ad.1 hA))
  obtain ⟨R', hR', _⟩ := allocate_ok 3 parts hv
  have hex : ∀ h ∈ allHoods parts, ∀ᶠ e in 𝓝 (0 : ℝ), ∀ C ∈ dofIds 3 h, ∃ g, plasticKernel E h (gather 3 h (bump F.y C e))
      (gather 3 h F.v) = .ok g := by
    intro h hh
    generalize dofIds 3 h = l
    induction l with
    | nil => simp
    | cons C l ih =>
      filter_upwards [(entry_derivative (K := plasticKernel E) (hn h hh) (h1 h hh).choose_spec
        (fun c => plastic_lifts hE.v (h1 h hh).choose_spec hyv hpos (by rw [trial_eq (allHoods_pos hv hh)]; exact hy h hh) c _) 0 C).1, ih] with e e1 e2 C' hC'
      rcases List.mem_cons.1 hC' with rfl | hC'
      · exact e1
      · exact e2 C' hC'
  have hneg : Filter.Tendsto (fun e : ℝ => -e) (𝓝 0) (𝓝 0) := by
    simpa using (continuous_neg (G := ℝ)).tendsto 0
  have hev := eventually_all hex
  have hev' := hneg.eventually hev
  have key : ∀ e : ℝ, ∃ B, (e ≠ 0 ∧ (∀ h ∈ allHoods parts, ∀ C ∈ dofIds 3 h, ∃ g, plasticKernel E h (gather 3 h (bump F.y C e))
      (gather 3 h F.v) = .ok g) ∧ (∀ h ∈ allHoods parts, ∀ C ∈ dofIds 3 h, ∃ g, plasticKernel E h (gather 3 h (bump F.y C (-e)))
      (gather 3 h F.v) = .ok g)) → elasticPlasticJacobian (some false) { P with epsilon := e } kind E Q F S' (parts.map Part.proc)
        (Sparse.zero R') = .ok B := by
    intro e
    by_cases hc : (e ≠ 0 ∧ (∀ h ∈ allHoods parts, ∀ C ∈ dofIds 3 h, ∃ g, plasticKernel E h (gather 3 h (bump F.y C e))
      (gather 3 h F.v) = .ok g) ∧ (∀ h ∈ allHoods parts, ∀ C ∈ dofIds 3 h, ∃ g, plasticKernel E h (gather 3 h (bump F.y C (-e)))
      (gather 3 h F.v) = .ok g))
    · have hP' : Mechanical { P with epsilon := e } := ⟨hP.1, hP.2, hP.3, hP.4⟩
      obtain ⟨R2, B, hR2, hB⟩ := C87_assembly_defined_partial { P with epsilon := e } hP' hc.1 ht (plasticKernel E) Q F S' parts hv hn (by
        rintro h hh C hC s (rfl | rfl)
        · exact hc.2.1 h hh C (mem_dofIds.2 ⟨by omega, hC⟩)
        · exact hc.2.2 h hh C (mem_dofIds.2 ⟨by omega, hC⟩)) hj
      rw [hR'] at hR2
      cases hR2
      exact ⟨B, fun _ => hB⟩
    · exact ⟨Sparse.zero R', fun h => absurd h hc⟩
  choose B hB using key
  refine ⟨R', B, hR', ?_⟩
  filter_upwards [hev.filter_mono nhdsWithin_le_nhds, hev'.filter_mono nhdsWithin_le_nhds, self_mem_nhdsWithin] with e e1 e2 e3
  exact hB e ⟨e3, e1, e2⟩

/-! ### C221 -/

/-- **C221** The request for the block diagonal tangent of an elastic-plastic block ends the program, if there is any point;
this tangent is added in full. -/
theorem C221_block_diagonal_terminates (E : PlasticSolid) (hE : E.Ductile) (P : Settings) (Q : FluxKernel) (F : Fields)
    (S : Scratch) (parts : List Part) (hv : ∀ p ∈ parts, p.Valid) (hn : ∀ h ∈ allHoods parts, h.Nodup)
    (hs : ∀ h ∈ allHoods parts, E.toSolid.Sound F.y h) (gids : List Nat) (hc : ∃ p ∈ parts, p.nbs ≠ []) :
    elasticPlasticJacobian none P .blockDiagonal E Q F S (parts.map Part.proc) (Sparse.zero (allocateBlockDiagonal gids)) =
      .fail .terminate := by
  obtain ⟨hyv, hpos⟩ := yieldLimit_ok hE
  have one : ∀ h ∈ allHoods parts, ∀ rows (s : Scratch × Sparse), s.2.pattern = allocateBlockDiagonal gids →
      plasticPoint (plasticAd E) F rows s h = .fail .terminate := by
    intro h hh rows s hp
    by_cases hl : h.length ≤ 1
    · unfold plasticPoint plasticLocal
      rw [bondMap_isolated hl]
      rfl
    obtain ⟨f, hf⟩ := (plasticAd_sound (by omega) hyv hpos).2 (hs h hh)
    obtain ⟨r, hr⟩ := adLocal_defined s.1 (by omega) hf
    have e : plasticPoint (plasticAd E) F rows s h = (addValues rows (dofIds 3 h) r.2 s.2 >>= fun A => .ok (r.1, A)) := by
      unfold plasticPoint
      rw [(plasticLocal_iff r).2 hr, Outcome.ok_bind]
    rw [e]
    rcases tidy_addValues rows (dofIds 3 h) r.2 s.2 with ⟨A, hA⟩ | hA
    · have hne : h[0] ≠ h[1] := fun e => by
        have := (List.Nodup.getElem_inj_iff (hn h hh)).1 e
        omega
      exact absurd hA fun hA =>
        addValues_diagonal (List.getElem_mem (by omega)) (List.getElem_mem (by omega)) hne hp hA
    · rw [hA]; rfl
  have all : ∀ ps : List Part, (∀ p ∈ ps, p ∈ parts) → (∃ p ∈ ps, p.nbs ≠ []) → ∀ A : Sparse,
      A.pattern = allocateBlockDiagonal gids → plasticTangent (plasticAd E) F S (ps.map Part.proc) A = .fail .terminate := by
    intro ps
    induction ps with
    | nil => rintro _ ⟨p, hp, _⟩; cases hp
    | cons p ps ih =>
      intro hps hc A hA
      have hp := hps p (List.mem_cons_self ..)
      rw [List.map_cons]
      unfold plasticTangent plasticOne
      rw [Part.hoods_ok (hv p hp), Outcome.ok_bind]
      cases hh : p.hoods with
      | nil =>
        rw [List.foldlM_nil]
        refine ih (fun q hq => hps q (List.mem_cons_of_mem _ hq)) ?_ A hA
        obtain ⟨q, hq, hne⟩ := hc
        rcases List.mem_cons.1 hq with rfl | hq
        · unfold Part.hoods at hh
          rw [List.map_eq_nil_iff, List.zipIdx_eq_nil_iff] at hh
          exact absurd hh hne
        · exact ⟨q, hq, hne⟩
      | cons h hs =>
        rw [List.foldlM_cons, one h (List.mem_flatMap.2 ⟨p, hp, by rw [hh]; exact List.mem_cons_self⟩) _ (S, A) hA]
        rfl
  exact all parts (fun _ h => h) hc _ rfl

/-! ### C222 -/

/-- In an elastic step the forces are those of the elastic material. -/
theorem plasticValue_elastic {S : PlasticSolid} {h : List Nat} (hvir : S.Virgin h) (ht : S.thermal = none) (yv : ℝ) (y : Nat → ℝ) (k : Nat) :
    plasticValue S yv h y none k = hoodValue S.toSolid h y k := by
  have hloc : S.local h y = S.toSolid.hood h y := by
    unfold PlasticSolid.local
    have : (S.toSolid.hood h y).thermal = none := by
      unfold Solid.hood
      rw [ht]
      rfl
    rw [← this]
  unfold plasticValue hoodValue
  rw [hloc]
  refine congrFun (congrArg List.sum (List.map_congr_left fun b hb => ?_)) _
  congr 2
  unfold pairOf
  congr 2
  rw [hood_bonds] at hb
  obtain ⟨t, htm, rfl⟩ := List.mem_map.1 hb
  have htm := List.mem_range.1 htm
  obtain ⟨h1, h2, h3⟩ := hvir t htm
  unfold tensionOf tension tdOf trialOf
  have e1 : (S.toSolid.hood h y).om ⟨0, t + 1, t⟩ = 1 := h2
  have e2 : (S.toSolid.hood h y).ext ⟨0, t + 1, t⟩ = (S.toSolid.hood h y).dY ⟨0, t + 1, t⟩ - (S.toSolid.hood h y).zeta ⟨0, t + 1, t⟩ := by
    unfold Config.ext
    have : (S.toSolid.hood h y).thermal = none := by
      unfold Solid.hood
      rw [ht]
      rfl
    rw [this]
  have e3 : (S.toSolid.hood h y).damage t = S.damage (h.getD 0 0) t := rfl
  simp only
  rw [e1, e2, e3, h3]
  rcases h1 with h1 | h1
  · rw [h1, show S.const.K = S.K from rfl, show S.const.mu = S.mu from rfl]
    ring
  · rw [h1]
    ring

/-- **C222** Below yield the tangent of the elastic-plastic material is that of the elastic material with the same moduli, if
the influence function is one, bonds are intact or broken and without plastic extension: one can be assembled exactly if the
other can, and they are equal. -/
theorem C222_elastic_tangent (E : PlasticSolid) (hE : E.Ductile) (ht : E.thermal = none) (P : Settings) (kind : Kind) (Q : FluxKernel)
    (F : Fields) (S S' : Scratch) (parts : List Part) (hv : ∀ p ∈ parts, p.Valid) (hn : ∀ h ∈ allHoods parts, h.Nodup)
    (hb : ∀ h ∈ allHoods parts, E.Virgin h ∧ E.BelowYield F.y h) (R R' : Nat → Finset Nat) (A B : Sparse)
    (hA : elasticPlasticJacobian none P kind E Q F S (parts.map Part.proc) (Sparse.zero R) = .ok A)
    (hB : elasticTangent none P .full E.toSolid Q F S' (parts.map Part.proc) (Sparse.zero R') = .ok B) :
    A.val = B.val := by
  obtain ⟨hyv, hpos⟩ := yieldLimit_ok hE
  obtain ⟨a1, a2⟩ := adTangent_ok (kind := .full) hv hn (plasticJacobian_ad.1 hA)
  obtain ⟨b1, b2⟩ := adTangent_ok (kind := .full) hv hn (show adTangent .full (elasticAd E.toSolid) F S' _ _ = _ from hB)
  funext r c
  rw [a2, b2]
  simp only [Sparse.zero, zero_add]
  congr 1
  apply List.map_congr_left
  intro g hg
  rw [if_pos (show Kept .full r c from trivial), if_pos (show Kept .full r c from trivial)]
  unfold adEntry
  split
  · obtain ⟨f, hf⟩ := a1 g hg
    obtain ⟨f', hf'⟩ := b1 g hg
    rw [hf, hf']
    simp only
    congr 1
    obtain ⟨_, _, yv, norm2, hyv', hN, hT⟩ := plasticAd_parts hf (slot 3 g c)
    rw [hyv] at hyv'
    cases hyv'
    obtain ⟨_, hT'⟩ := elasticAd_parts hf' (slot 3 g c)
    refine (hT (slot 3 g r)).2.unique ?_
    refine (hT' (slot 3 g r)).2.congr_of_eventuallyEq ?_
    refine Filter.Eventually.of_forall fun s => ?_
    have hst : heldStep E.yieldLimit norm2 (fun s => hoodNorm E g (bump (gather 3 g F.y) (slot 3 g c) s)) s = none := by
      unfold heldStep
      rw [if_neg]
      have e0 : bump (gather 3 g F.y) (slot 3 g c) 0 = gather 3 g F.y := by simp [bump]
      have h0 := hN.1
      simp only [e0] at h0
      rw [← h0, Real.mul_self_sqrt (hoodNorm_nonneg hE.v _ _), trial_eq (allHoods_pos hv hg)]
      have := (hb g hg).2
      unfold PlasticSolid.BelowYield at this
      linarith
    simp only
    rw [hst]
    exact plasticValue_elastic (hb g hg).1 ht _ _ _
  · rfl

/-- **C222** So it is symmetric. -/
theorem C222_symmetric (E : PlasticSolid) (hE : E.Ductile) (ht : E.thermal = none) (P : Settings) (kind : Kind) (Q : FluxKernel)
    (F : Fields) (hvol : F.vol = E.v) (S : Scratch) (parts : List Part) (hv : ∀ p ∈ parts, p.Valid) (hn : ∀ h ∈ allHoods parts, h.Nodup)
    (hb : ∀ h ∈ allHoods parts, E.Virgin h ∧ E.BelowYield F.y h) (R : Nat → Finset Nat) (A : Sparse)
    (hR : allocate 3 (parts.map Part.proc) = .ok R)
    (hA : elasticPlasticJacobian none P kind E Q F S (parts.map Part.proc) (Sparse.zero R) = .ok A) (r c : Nat) :
    A.val r c = A.val c r := by
  obtain ⟨R', B, _, hB⟩ := (C213_defined E.toSolid P Q F S parts hv hn).2 ((C220_defined E hE P kind Q F S parts hv hn).1 ⟨R, A, hR, hA⟩)
  rw [C222_elastic_tangent E hE ht P kind Q F S S parts hv hn hb R R' A B hA hB]
  exact C215_symmetric E.toSolid P Q F hvol S parts hv hn R' B hB r c

/-! ### Example -/

/-- Three points on a line, the first in the middle and bonded to the others; `s` is the yield stress. -/
def trio (s : ℝ) : PlasticSolid where
  K := 1
  mu := 1
  horizon := 2
  omega := fun _ _ => 1
  thermal := none
  x := fun i => if i = 1 then ![1, 0, 0] else if i = 2 then ![-1, 0, 0] else 0
  v := fun _ => 1
  m := fun i => if i = 0 then 2 else 1
  damage := fun _ _ => 0
  yieldStress := s
  planar := none
  edp := fun _ _ => 0

/-- Their bonds, on one processor. -/
def trioParts : List Part := [⟨[0, 1, 2], [[1, 2], [0], [0]]⟩]

/-- The second point is moved away by `a`. -/
def trioMoved (a : ℝ) : Fields := ⟨fun k => if k = 3 then 1 + a else if k = 6 then -1 else 0, fun _ => 0, fun _ => 0, fun _ => 1⟩

theorem trio_hoods : allHoods trioParts = [[0, 1, 2], [1, 0], [2, 0]] := by decide

theorem trio_valid : ∀ p ∈ trioParts, p.Valid := by
  unfold Part.Valid Within trioParts
  decide

theorem trio_nodup : ∀ h ∈ allHoods trioParts, h.Nodup := by
  rw [trio_hoods]
  decide

theorem trio_joined : Joined trioParts := by
  unfold Tangent.Joined trioParts
  decide

theorem trio_ductile {s : ℝ} (hs : s ≠ 0) : (trio s).Ductile where
  yieldStress := hs
  horizon := by norm_num [trio]
  planar := by intro t ht; cases ht
  v _ := zero_le_one

theorem trio_comp (a : ℝ) : comp (trioMoved a).y 0 = 0 ∧ comp (trioMoved a).y 1 = ![1 + a, 0, 0] ∧ comp (trioMoved a).y 2 = ![-1, 0, 0] := by
  refine ⟨?_, ?_, ?_⟩ <;> funext c <;> fin_cases c <;> simp [comp, trioMoved]

theorem len_x (t : ℝ) : len ![t, 0, 0] = |t| := by
  unfold len
  simp [Real.sqrt_mul_self_eq_abs]

theorem trio_trial {s a : ℝ} (ha : 0 ≤ a) : (trio s).trial (trioMoved a).y [0, 1, 2] = 225 / 8 * a ^ 2 ∧
    (trio s).trial (trioMoved a).y [1, 0] = 0 ∧ (trio s).trial (trioMoved a).y [2, 0] = 0 := by
  obtain ⟨c0, c1, c2⟩ := trio_comp a
  have r1 : ∀ t : ℝ, (![t, 0, 0] : V3) - 0 = ![t, 0, 0] := fun t => sub_zero _
  have r2 : ∀ t : ℝ, 0 - (![t, 0, 0] : V3) = ![-t, 0, 0] := fun t => by
    funext c
    fin_cases c <;> simp
  have l1 : |1 + a| = 1 + a := abs_of_nonneg (by linarith)
  have l2 : |-(1 + a)| = 1 + a := by rw [abs_neg, l1]
  have z1 : (trio s).bondRef [0, 1, 2] 0 = 1 := by
    simp [PlasticSolid.bondRef, trio, len_x]
  have z2 : (trio s).bondRef [0, 1, 2] 1 = 1 := by
    simp [PlasticSolid.bondRef, trio, len_x]
  have z3 : (trio s).bondRef [1, 0] 0 = 1 := by
    simp only [PlasticSolid.bondRef, trio]
    simp [r2, len_x]
  have z4 : (trio s).bondRef [2, 0] 0 = 1 := by
    simp only [PlasticSolid.bondRef, trio]
    simp [r2, len_x]
  have e1 : (trio s).bondExt (trioMoved a).y [0, 1, 2] 0 = a := by
    unfold PlasticSolid.bondExt
    rw [z1]
    show len (comp (trioMoved a).y 1 - comp (trioMoved a).y 0) - 1 = a
    rw [c0, c1, r1, len_x, l1]
    ring
  have e2 : (trio s).bondExt (trioMoved a).y [0, 1, 2] 1 = 0 := by
    unfold PlasticSolid.bondExt
    rw [z2]
    show len (comp (trioMoved a).y 2 - comp (trioMoved a).y 0) - 1 = 0
    rw [c0, c2, r1, len_x]
    norm_num
  have e3 : (trio s).bondExt (trioMoved a).y [1, 0] 0 = a := by
    unfold PlasticSolid.bondExt
    rw [z3]
    show len (comp (trioMoved a).y 0 - comp (trioMoved a).y 1) - 1 = a
    rw [c0, c1, r2, len_x, l2]
    ring
  have e4 : (trio s).bondExt (trioMoved a).y [2, 0] 0 = 0 := by
    unfold PlasticSolid.bondExt
    rw [z4]
    show len (comp (trioMoved a).y 0 - comp (trioMoved a).y 2) - 1 = 0
    rw [c0, c2, r2, len_x]
    norm_num
  refine ⟨?_, ?_, ?_⟩
  · simp only [PlasticSolid.trial, PlasticSolid.dilat, List.length_cons, List.length_nil, Nat.add_sub_cancel, Finset.sum_range_succ,
      Finset.sum_range_zero, zero_add, z1, z2, e1, e2]
    simp only [trio, List.getD_cons_zero, List.getD_cons_succ]
    norm_num
    ring
  · simp only [PlasticSolid.trial, PlasticSolid.dilat, List.length_cons, List.length_nil, Nat.add_sub_cancel, Finset.sum_range_succ,
      Finset.sum_range_zero, zero_add, z3, e3]
    simp only [trio, List.getD_cons_zero, List.getD_cons_succ]
    norm_num
  · simp only [PlasticSolid.trial, PlasticSolid.dilat, List.length_cons, List.length_nil, Nat.add_sub_cancel, Finset.sum_range_succ,
      Finset.sum_range_zero, zero_add, z4, e4]
    simp only [trio, List.getD_cons_zero, List.getD_cons_succ]
    norm_num

theorem trio_limit (s : ℝ) : (trio s).yieldLimit = 25 * s ^ 2 / (256 * Real.pi) := by
  show 25 * s ^ 2 / (8 * Real.pi * (2 : ℝ) ^ 5) = _
  congr 1
  ring

theorem trio_sound {s a : ℝ} (ha : 0 ≤ a) : ∀ h ∈ allHoods trioParts, (trio s).toSolid.Sound (trioMoved a).y h := by
  obtain ⟨c0, c1, c2⟩ := trio_comp a
  have n1 : comp (trioMoved a).y 1 ≠ comp (trioMoved a).y 0 := by
    rw [c0, c1]
    intro e
    have := congrFun e 0
    simp at this
    linarith
  have n2 : comp (trioMoved a).y 2 ≠ comp (trioMoved a).y 0 := by
    rw [c0, c2]
    intro e
    have := congrFun e 0
    simp at this
  rw [trio_hoods]
  intro h hh j hj
  simp only [List.mem_cons, List.not_mem_nil, or_false] at hh
  rcases hh with rfl | rfl | rfl
  · simp only [List.tail_cons, List.mem_cons, List.not_mem_nil, or_false] at hj
    refine ⟨by norm_num [trio], ?_⟩
    rcases hj with rfl | rfl
    · exact n1
    · exact n2
  · simp only [List.tail_cons, List.mem_cons, List.not_mem_nil, or_false] at hj
    subst hj
    exact ⟨by norm_num [trio], n1.symm⟩
  · simp only [List.tail_cons, List.mem_cons, List.not_mem_nil, or_false] at hj
    subst hj
    exact ⟨by norm_num [trio], n2.symm⟩

/-- With the yield stress one the point in the middle yields. -/
theorem trio_yields : (trio 1).yieldLimit < (trio 1).trial (trioMoved (1 / 10)).y [0, 1, 2] / 2 := by
  rw [trio_limit, (trio_trial (by norm_num)).1, div_lt_iff₀ (by have := Real.pi_pos; positivity)]
  have := Real.pi_gt_three
  nlinarith

/-- With the yield stress ten no point does. -/
theorem trio_below : ∀ h ∈ allHoods trioParts, (trio 10).Virgin h ∧ (trio 10).BelowYield (trioMoved (1 / 10)).y h := by
  have hpi := Real.pi_pos
  have h4 := Real.pi_lt_four
  have hpos : 0 < 25 * (10 : ℝ) ^ 2 / (256 * Real.pi) := by positivity
  rw [trio_hoods]
  intro h hh
  refine ⟨fun t _ => ⟨.inl rfl, rfl, rfl⟩, ?_⟩
  unfold PlasticSolid.BelowYield
  rw [trio_limit]
  obtain ⟨t1, t2, t3⟩ := trio_trial (s := 10) (a := 1 / 10) (by norm_num)
  simp only [List.mem_cons, List.not_mem_nil, or_false] at hh
  rcases hh with rfl | rfl | rfl
  · rw [t1, lt_div_iff₀ (by positivity)]
    nlinarith
  · rw [t2]
    simpa using hpos
  · rw [t3]
    simpa using hpos

theorem trio_off : ∀ h ∈ allHoods trioParts, ¬ (trio 1).AtYield (trioMoved (1 / 10)).y h := by
  have hpos := (yieldLimit_ok (trio_ductile one_ne_zero)).2
  obtain ⟨t1, t2, t3⟩ := trio_trial (s := 1) (a := 1 / 10) (by norm_num)
  have hg := trio_yields
  rw [trio_hoods]
  intro h hh e
  unfold PlasticSolid.AtYield at e
  simp only [List.mem_cons, List.not_mem_nil, or_false] at hh
  rcases hh with rfl | rfl | rfl
  · linarith
  · rw [t2] at e; linarith
  · rw [t3] at e; linarith

/-- The hypotheses of C220 are met by the three points, one of which yields. -/
example : ∃ R A, (trio 1).Ductile ∧ (∀ h ∈ allHoods trioParts, ¬ (trio 1).AtYield (trioMoved (1 / 10)).y h) ∧
    elasticPlasticJacobian none (settings 1 1) .full (trio 1) (fun _ _ => .ub) (trioMoved (1 / 10)) fresh (trioParts.map Part.proc)
      (Sparse.zero R) = .ok A ∧
    ∀ r c, IsDerivative (plasticKernel (trio 1)) (trioMoved (1 / 10)) (allHoods trioParts) r c (A.val r c) := by
  obtain ⟨R, A, hR, hA⟩ := (C220_defined (trio 1) (trio_ductile one_ne_zero) (settings 1 1) .full (fun _ _ => .ub) (trioMoved (1 / 10)) fresh
    trioParts trio_valid trio_nodup).2 ⟨trio_joined, trio_sound (by norm_num)⟩
  have hy := trio_off
  exact ⟨R, A, trio_ductile one_ne_zero, hy, hA, C220_consistent_tangent _ (trio_ductile one_ne_zero) _ _ _ _ _ _ trio_valid trio_nodup hy R A hA⟩

example : ∃ (R R' : Nat → Finset Nat) (A : Sparse) (B : ℝ → Sparse),
    elasticPlasticJacobian (some true) (settings 1 1) .full (trio 1) (fun _ _ => .ub) (trioMoved (1 / 10)) fresh (trioParts.map Part.proc)
      (Sparse.zero R) = .ok A ∧
    (∀ᶠ e in 𝓝[≠] (0 : ℝ), elasticPlasticJacobian (some false) { settings 1 1 with epsilon := e } .full (trio 1) (fun _ _ => .ub)
      (trioMoved (1 / 10)) fresh (trioParts.map Part.proc) (Sparse.zero R') = .ok (B e)) ∧
    Filter.Tendsto (fun e => (B e).val 0 3) (𝓝[≠] 0) (𝓝 (A.val 0 3)) := by
  obtain ⟨R, A, hR, hA⟩ := (C220_defined (trio 1) (trio_ductile one_ne_zero) (settings 1 1) .full (fun _ _ => .ub) (trioMoved (1 / 10)) fresh
    trioParts trio_valid trio_nodup).2 ⟨trio_joined, trio_sound (by norm_num)⟩
  obtain ⟨R', B, _, hB⟩ := C220_finite_differences_defined (trio 1) (trio_ductile one_ne_zero) (settings 1 1) (settings_mech _ _) one_ne_zero .full
    (fun _ _ => .ub) (trioMoved (1 / 10)) fresh fresh trioParts trio_valid trio_nodup trio_off R A hA
  exact ⟨R, R', A, B, hA, hB, C220_finite_differences (trio 1) (trio_ductile one_ne_zero) (settings 1 1) (settings_mech _ _) .full (fun _ _ => .ub)
    (trioMoved (1 / 10)) fresh fresh trioParts trio_valid trio_nodup trio_off R R' A B hA hB 0 1 0 0 (by omega) (by omega)⟩

example : elasticPlasticJacobian none (settings 1 1) .blockDiagonal (trio 1) (fun _ _ => .ub) (trioMoved (1 / 10)) fresh
    (trioParts.map Part.proc) (Sparse.zero (allocateBlockDiagonal [0, 1, 2])) = .fail .terminate :=
  C221_block_diagonal_terminates (trio 1) (trio_ductile one_ne_zero) _ _ _ _ trioParts trio_valid trio_nodup (trio_sound (by norm_num))
    [0, 1, 2] (by unfold trioParts; decide)

/-- The hypotheses of C222 are met if the yield stress is larger. -/
example : ∃ R A B, elasticPlasticJacobian none (settings 1 1) .full (trio 10) (fun _ _ => .ub) (trioMoved (1 / 10)) fresh
      (trioParts.map Part.proc) (Sparse.zero R) = .ok A ∧
    elasticTangent none (settings 1 1) .full (trio 10).toSolid (fun _ _ => .ub) (trioMoved (1 / 10)) fresh (trioParts.map Part.proc)
      (Sparse.zero R) = .ok B ∧ A.val = B.val := by
  obtain ⟨R, A, hR, hA⟩ := (C220_defined (trio 10) (trio_ductile (by norm_num)) (settings 1 1) .full (fun _ _ => .ub) (trioMoved (1 / 10)) fresh
    trioParts trio_valid trio_nodup).2 ⟨trio_joined, trio_sound (by norm_num)⟩
  obtain ⟨R', B, hR', hB⟩ := (C213_defined (trio 10).toSolid (settings 1 1) (fun _ _ => .ub) (trioMoved (1 / 10)) fresh
    trioParts trio_valid trio_nodup).2 ⟨trio_joined, trio_sound (by norm_num)⟩
  rw [hR] at hR'
  cases hR'
  exact ⟨R, A, B, hA, hB, C222_elastic_tangent (trio 10) (trio_ductile (by norm_num)) rfl _ _ _ _ _ _ _ trio_valid trio_nodup trio_below
    R R A B hA hB⟩

end Verif.Fad
