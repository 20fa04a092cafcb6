import Verif.ShearFactor.Spec
import Verif.Energy.Lemmas

noncomputable section

namespace Verif.ShearFactor

open Verif Verif.Neigh Verif.Mech
open scoped Classical Matrix

/-! ### Sheared positions -/

theorem shearedNeighbor_eq (M : Mode) (g : ℝ) (X XP : V3) :
    shearedNeighbor M g X XP = XP + g • (unitShear M *ᵥ (XP - X)) := by
  funext c
  cases M <;> fin_cases c <;>
    simp [shearedNeighbor, unitShear, Matrix.mulVec, dotProduct, Fin.sum_univ_three]

theorem setPureShear_of_notMem {x : Nat → V3} {X : V3} {M : Mode} {g : ℝ} {ns : List Nat} {k : Nat}
    (h : k ∉ ns) (y : Nat → V3) : setPureShear x X M g ns y k = y k := by
  induction ns generalizing y with
  | nil => rfl
  | cons j ns ih =>
    rw [setPureShear, ih (fun h' => h (List.mem_cons_of_mem _ h')),
      Function.update_of_ne (fun h' : k = j => h (by rw [h']; exact List.mem_cons_self))]

theorem setPureShear_of_mem {x : Nat → V3} {X : V3} {M : Mode} {g : ℝ} {ns : List Nat} {k : Nat}
    (h : k ∈ ns) (y : Nat → V3) :
    setPureShear x X M g ns y k = x k + g • (unitShear M *ᵥ (x k - X)) := by
  induction ns generalizing y with
  | nil => cases h
  | cons j ns ih =>
    rw [setPureShear]
    by_cases hk : k ∈ ns
    · exact ih hk _
    · rw [setPureShear_of_notMem hk]
      rcases List.mem_cons.1 h with rfl | h
      · rw [Function.update_self, shearedNeighbor_eq]
      · exact absurd h hk

/-- The positions when a mode is probed. -/
abbrev probed (C : Config) (M : Mode) (p : Nat) (ns : List Nat) (y : Nat → V3) : Nat → V3 :=
  setPureShear C.x (C.x p) M gamma ns (Function.update y p (C.x p))

theorem probed_length (C : Config) (M : Mode) {p : Nat} {ns : List Nat} (y : Nat → V3) {j : Nat}
    (hj : j ∈ ns) : len (probed C M p ns y j - probed C M p ns y p) = newLength C M p j := by
  have hp : probed C M p ns y p = C.x p := by
    by_cases h : p ∈ ns
    · rw [probed, setPureShear_of_mem h]; simp
    · rw [probed, setPureShear_of_notMem h, Function.update_self]
  rw [hp, probed, setPureShear_of_mem hj, newLength]
  congr 1
  abel

/-! ### The norm of a mode -/

/-- The weight of a bond. -/
abbrev wt (C : Config) (p j : Nat) : ℝ := C.omega (len (C.x j - C.x p)) C.horizon * C.v j

/-- The dilatation in a shear. -/
def shearTheta (C : Config) (m : ℝ) (M : Mode) (p : Nat) (ns : List Nat) : ℝ :=
  (ns.map fun j => 3 * wt C p j * len (C.x j - C.x p) *
    (newLength C M p j - len (C.x j - C.x p)) / m).sum

/-- The squared norm of the deviatoric extension in a shear. -/
def dev2 (C : Config) (m : ℝ) (M : Mode) (p : Nat) (ns : List Nat) : ℝ :=
  (ns.map fun j => wt C p j * (newLength C M p j - len (C.x j - C.x p) -
    shearTheta C m M p ns * len (C.x j - C.x p) / 3) ^ 2).sum

theorem foldl_sum {α : Type} (f : α → ℝ) (l : List α) (a : ℝ) :
    l.foldl (fun s x => s + f x) a = a + (l.map f).sum := by
  induction l generalizing a with
  | nil => simp
  | cons x l ih => rw [List.foldl_cons, ih, List.map_cons, List.sum_cons, add_assoc]

theorem pointDilatation_eq (C : Config) (m : ℝ) (M : Mode) (p : Nat) (ns : List Nat) (y : Nat → V3) :
    pointDilatation C m (probed C M p ns y) p ns =
      if ns ≠ [] ∧ m = 0 then .ub else .ok (shearTheta C m M p ns) := by
  rw [pointDilatation]
  split
  · rfl
  · congr 1
    rw [foldl_sum (fun j => 3 * C.omega (len (C.x j - C.x p)) C.horizon * (1 - 0) * len (C.x j - C.x p) *
      (len (probed C M p ns y j - probed C M p ns y p) - len (C.x j - C.x p)) * C.v j / m), zero_add,
      shearTheta]
    congr 1
    apply List.map_congr_left
    intro j hj
    rw [probed_length C M y hj, wt]
    ring

theorem deviatoricNorm2_eq (C : Config) (m : ℝ) (M : Mode) (p : Nat) (ns : List Nat) (y : Nat → V3) :
    deviatoricNorm2 C m (probed C M p ns y) p ns =
      if ns ≠ [] ∧ m = 0 then .ub else .ok (dev2 C m M p ns) := by
  rw [deviatoricNorm2, pointDilatation_eq]
  split
  · rfl
  · rw [Outcome.ok_bind]
    congr 1
    rw [foldl_sum (fun j => (len (probed C M p ns y j - probed C M p ns y p) - len (C.x j - C.x p) -
      shearTheta C m M p ns * len (C.x j - C.x p) / 3) * C.omega (len (C.x j - C.x p)) C.horizon *
      (len (probed C M p ns y j - probed C M p ns y p) - len (C.x j - C.x p) -
      shearTheta C m M p ns * len (C.x j - C.x p) / 3) * C.v j), zero_add, dev2]
    congr 1
    apply List.map_congr_left
    intro j hj
    rw [probed_length C M y hj, wt]
    ring

/-- The largest of the three norms. -/
def maxDev (C : Config) (m : ℝ) (p : Nat) (ns : List Nat) : ℝ :=
  max (max (dev2 C m .XY p ns) (dev2 C m .ZX p ns)) (dev2 C m .YZ p ns)

theorem dev2_le (C : Config) (m : ℝ) (M : Mode) (p : Nat) (ns : List Nat) :
    dev2 C m M p ns ≤ maxDev C m p ns := by
  rw [maxDev]
  cases M
  · exact (le_max_left _ _).trans (le_max_left _ _)
  · exact (le_max_right _ _).trans (le_max_left _ _)
  · exact le_max_right _ _

theorem exists_max (C : Config) (m : ℝ) (p : Nat) (ns : List Nat) :
    ∃ M, dev2 C m M p ns = maxDev C m p ns := by
  rw [maxDev]
  rcases max_choice (max (dev2 C m .XY p ns) (dev2 C m .ZX p ns)) (dev2 C m .YZ p ns) with h | h
  · rw [h]
    rcases max_choice (dev2 C m .XY p ns) (dev2 C m .ZX p ns) with h | h
    · exact ⟨.XY, h.symm⟩
    · exact ⟨.ZX, h.symm⟩
  · exact ⟨.YZ, h.symm⟩

theorem greater_eq_max (a b : ℝ) : (if b > a then b else a) = max a b := by
  split
  · next h => exact (max_eq_right h.le).symm
  · next h => exact (max_eq_left (not_lt.1 h)).symm

theorem probe_eq (C : Config) (m : ℝ) (M : Mode) (p : Nat) (ns : List Nat) (y : Nat → V3) :
    probe C m M p ns y = if ns ≠ [] ∧ m = 0 then .ub
      else .ok (dev2 C m M p ns, probed C M p ns y) := by
  rw [probe]
  simp only [deviatoricNorm2_eq]
  split <;> rfl

theorem pointFactor_ok {C : Config} {m : ℝ} {p : Nat} {ns : List Nat} (h : ns = [] ∨ m ≠ 0)
    (hx : maxDev C m p ns ≠ 0) (y : Nat → V3) :
    ∃ y', pointFactor C m p ns y = .ok (4 * gamma * gamma * m / maxDev C m p ns / 15, y') := by
  have hn : ¬ (ns ≠ [] ∧ m = 0) := by tauto
  rw [pointFactor]
  simp only [probe_eq, if_neg hn, Outcome.ok_bind, greater_eq_max]
  rw [← maxDev, if_neg hx]
  exact ⟨_, rfl⟩

theorem pointFactor_eq {C : Config} {m : ℝ} {p : Nat} {ns : List Nat} {y : Nat → V3} {r : ℝ × (Nat → V3)}
    (h : pointFactor C m p ns y = .ok r) :
    (ns = [] ∨ m ≠ 0) ∧ maxDev C m p ns ≠ 0 ∧ r.1 = 4 * gamma * gamma * m / maxDev C m p ns / 15 := by
  by_cases hn : ns ≠ [] ∧ m = 0
  · rw [pointFactor, probe_eq, if_pos hn] at h
    cases h
  · rw [pointFactor] at h
    simp only [probe_eq, if_neg hn, Outcome.ok_bind, greater_eq_max] at h
    rw [← maxDev] at h
    split at h
    · cases h
    · next hx =>
      cases h
      exact ⟨by tauto, hx, rfl⟩

/-! ### The loop over the points -/

theorem factorLoop_iff (C : Config) (m : Nat → ℝ) (nbs : List (List Nat)) (y : Nat → V3) (f0 : Nat → ℝ) :
    ((∃ f, factorLoop C m (encode nbs) nbs.length 0 0 y f0 = .ok f) ↔
      ∀ p ns, nbs[p]? = some ns → (ns = [] ∨ m p ≠ 0) ∧ maxDev C (m p) p ns ≠ 0) ∧
    ∀ f, factorLoop C m (encode nbs) nbs.length 0 0 y f0 = .ok f →
      ∀ p ns, nbs[p]? = some ns → f p = 4 * gamma * gamma * m p / maxDev C (m p) p ns / 15 := by
  have key : ∀ (suf pre : List (List Nat)) (y : Nat → V3) (f0 : Nat → ℝ),
      ((∃ f, factorLoop C m (encode (pre ++ suf)) suf.length pre.length (encode pre).length y f0 = .ok f) ↔
        ∀ q ns, suf[q]? = some ns → (ns = [] ∨ m (pre.length + q) ≠ 0) ∧
          maxDev C (m (pre.length + q)) (pre.length + q) ns ≠ 0) ∧
      ∀ f, factorLoop C m (encode (pre ++ suf)) suf.length pre.length (encode pre).length y f0 = .ok f →
        (∀ q ns, suf[q]? = some ns → f (pre.length + q) =
          4 * gamma * gamma * m (pre.length + q) / maxDev C (m (pre.length + q)) (pre.length + q) ns / 15) ∧
        ∀ p < pre.length, f p = f0 p := by
    intro suf
    induction suf with
    | nil =>
      intro pre y f0
      refine ⟨⟨fun _ => by simp, fun _ => ⟨f0, rfl⟩⟩, ?_⟩
      intro f hf
      cases hf
      simp
    | cons ns suf ih =>
      intro pre y f0
      have hn : neighborsAt (encode (pre ++ ns :: suf)) (encode pre).length = .ok ns := by
        have hlt : pre.length < (pre ++ ns :: suf).length := by simp
        have := neighborsAt_get (pre ++ ns :: suf) pre.length hlt
        simpa using this
      have hr : readAt (encode (pre ++ ns :: suf)) (encode pre).length = .ok ns.length := by
        have e : encode (pre ++ ns :: suf) = encode pre ++ (ns.length :: (ns ++ encode suf)) := by
          simp [encode]
        rw [e, readAt]
        simp
      have el : (encode (pre ++ [ns])).length = (encode pre).length + (ns.length + 1) := by
        simp [encode]
      have ep : pre ++ ns :: suf = (pre ++ [ns]) ++ suf := by simp
      have es : ∀ q, (pre ++ [ns]).length + q = pre.length + (q + 1) := by
        intro q; simp; omega
      rw [List.length_cons, factorLoop, hr, hn]
      simp only [Outcome.ok_bind]
      constructor
      · constructor
        · rintro ⟨f, hf⟩
          obtain ⟨r, h1, h2⟩ := Outcome.bind_eq_ok.1 hf
          obtain ⟨a, b, -⟩ := pointFactor_eq h1
          have h3 := (ih (pre ++ [ns]) r.2 (Function.update f0 pre.length r.1)).1.1
            ⟨f, by rw [← ep, el, List.length_append, List.length_singleton]; exact h2⟩
          intro q ns' hq
          cases q with
          | zero =>
            simp at hq
            subst hq
            exact ⟨a, b⟩
          | succ q =>
            rw [← es]
            exact h3 q ns' (by simpa using hq)
        · intro h
          obtain ⟨a, b⟩ := h 0 ns (by simp)
          obtain ⟨y', h1⟩ := pointFactor_ok a b y
          obtain ⟨f, hf⟩ := (ih (pre ++ [ns]) y' (Function.update f0 pre.length
            (4 * gamma * gamma * m pre.length / maxDev C (m pre.length) pre.length ns / 15))).1.2 (by
            intro q ns' hq
            rw [es]
            exact h (q + 1) ns' (by simpa using hq))
          refine ⟨f, Outcome.bind_eq_ok.2 ⟨_, h1, ?_⟩⟩
          rw [← ep, el, List.length_append, List.length_singleton] at hf
          exact hf
      · intro f hf
        obtain ⟨r, h1, h2⟩ := Outcome.bind_eq_ok.1 hf
        obtain ⟨a, b, e⟩ := pointFactor_eq h1
        obtain ⟨h3, h4⟩ := (ih (pre ++ [ns]) r.2 (Function.update f0 pre.length r.1)).2 f
          (by rw [← ep, el, List.length_append, List.length_singleton]; exact h2)
        constructor
        · intro q ns' hq
          cases q with
          | zero =>
            simp at hq
            subst hq
            rw [Nat.add_zero, h4 pre.length (by simp), Function.update_self, e]
          | succ q =>
            rw [← es]
            exact h3 q ns' (by simpa using hq)
        · intro p hp
          rw [h4 p (by simp; omega), Function.update_of_ne (by omega)]
  obtain ⟨h1, h2⟩ := key nbs [] y f0
  simp only [List.nil_append, List.length_nil, Nat.zero_add, encode_nil] at h1 h2
  exact ⟨h1, fun f hf => (h2 f hf).1⟩

theorem multiphysicsInit_iff (C : Config) (nbs : List (List Nat)) (m0 : Nat → ℝ) :
    (∃ R, multiphysicsInit C true nbs.length (encode nbs) m0 = .ok R) ↔
      ∀ p ns, nbs[p]? = some ns → maxDev C (weightedVolumeAt C p ns) p ns ≠ 0 ∧
        (ns = [] ∨ weightedVolumeAt C p ns ≠ 0) := by
  obtain ⟨m, h1, h2, -⟩ := C22_stored C nbs m0
  obtain ⟨h3, -⟩ := factorLoop_iff C m nbs C.y fun _ => 1
  constructor
  · rintro ⟨R, hR⟩
    rw [multiphysicsInit, h1, Outcome.ok_bind, if_pos rfl] at hR
    obtain ⟨f, hf, -⟩ := Outcome.bind_eq_ok.1 hR
    intro p ns hp
    rw [← h2 p ns hp]
    exact (h3.1 ⟨f, hf⟩ p ns hp).symm
  · intro h
    obtain ⟨f, hf⟩ := h3.2 (fun p ns hp => by rw [h2 p ns hp]; exact (h p ns hp).symm)
    exact ⟨⟨m, f⟩, by rw [multiphysicsInit, h1, Outcome.ok_bind, if_pos rfl, hf]; rfl⟩

theorem multiphysicsInit_eq {C : Config} {nbs : List (List Nat)} {m0 : Nat → ℝ} {R : Corrected}
    (h : multiphysicsInit C true nbs.length (encode nbs) m0 = .ok R) {p : Nat} {ns : List Nat}
    (hp : nbs[p]? = some ns) :
    R.m p = weightedVolumeAt C p ns ∧ (ns = [] ∨ R.m p ≠ 0) ∧ maxDev C (R.m p) p ns ≠ 0 ∧
      R.scf p = 4 * gamma * gamma * R.m p / maxDev C (R.m p) p ns / 15 := by
  obtain ⟨m, h1, h2, -⟩ := C22_stored C nbs m0
  obtain ⟨h3, h4⟩ := factorLoop_iff C m nbs C.y fun _ => 1
  rw [multiphysicsInit, h1, Outcome.ok_bind, if_pos rfl] at h
  obtain ⟨f, hf, h⟩ := Outcome.bind_eq_ok.1 h
  cases h
  exact ⟨h2 p ns hp, (h3.1 ⟨f, hf⟩ p ns hp).1, (h3.1 ⟨f, hf⟩ p ns hp).2, h4 f hf p ns hp⟩

theorem weightedVolumeAt_nil (C : Config) (p : Nat) : weightedVolumeAt C p [] = 0 := rfl

theorem maxDev_nil (C : Config) (m : ℝ) (p : Nat) : maxDev C m p [] = 0 := by
  simp [maxDev, dev2]

theorem multiphysicsInit_m {C : Config} {nbs : List (List Nat)} {m0 : Nat → ℝ} {R : Corrected}
    (h : multiphysicsInit C true nbs.length (encode nbs) m0 = .ok R) {p : Nat} (hp : p < nbs.length) :
    R.m p ≠ 0 := by
  have hns : nbs[p]? = some nbs[p] := List.getElem?_eq_getElem hp
  obtain ⟨-, h2, h3, -⟩ := multiphysicsInit_eq h hns
  rcases h2 with h2 | h2
  · rw [h2, maxDev_nil] at h3
    exact absurd rfl h3
  · exact h2

theorem maxDev_pos {C : Config} {nbs : List (List Nat)} (hw : Nonneg C nbs) {p : Nat} {ns : List Nat}
    (hp : nbs[p]? = some ns) {m : ℝ} (h : maxDev C m p ns ≠ 0) : 0 < maxDev C m p ns := by
  refine lt_of_le_of_ne ?_ (Ne.symm h)
  refine le_trans ?_ (dev2_le C m .XY p ns)
  rw [dev2]
  apply List.sum_nonneg
  intro t ht
  obtain ⟨j, hj, rfl⟩ := List.mem_map.1 ht
  obtain ⟨h1, h2⟩ := hw p j ⟨ns, hp, hj⟩
  exact mul_nonneg (mul_nonneg h2 h1) (sq_nonneg _)

/-! ### Sums over the bonds of a point -/

theorem sum_bonds {nbs : List (List Nat)} {p : Nat} {ns : List Nat} (hp : nbs[p]? = some ns)
    (f : Bond → ℝ) (g : Nat → ℝ) (h : ∀ b ∈ bondsOf nbs, b.i = p → f b = g b.j) :
    (((bondsOf nbs).filter fun b => b.i = p).map f).sum = (ns.map g).sum := by
  have e : (((bondsOf nbs).filter fun b => b.i = p).map f) =
      ((bondsOf nbs).filter fun b => b.i = p).map fun b => g b.j := by
    apply List.map_congr_left
    intro b hb
    exact h b (List.mem_filter.1 hb).1 (of_decide_eq_true (List.mem_filter.1 hb).2)
  rw [e, filter_bondsOf nbs hp, List.map_map]
  have : ∀ (ns : List Nat) (k : Nat) (g : Nat → ℝ), (ns.map g).sum =
      ((ns.zipIdx k).map (fun x => g x.1)).sum := by
    intro ns
    induction ns with
    | nil => intro k g; rfl
    | cons a ns ih => intro k g; rw [List.zipIdx_cons, List.map_cons, List.map_cons, List.sum_cons,
        List.sum_cons, ih (k + 1)]
  rw [this _ 0]
  rfl

/-! ### The sheared body -/

theorem shearedBody_dY (C : Config) (M : Mode) (c : V3) (m : Nat → ℝ) (b : Bond) :
    (withVolumes (shearedBody C M gamma c) m).dY b = newLength C M b.i b.j := by
  rw [Config.dY, Config.yd, newLength]
  congr 1
  simp only [withVolumes, shearedBody]
  simp only [Matrix.mulVec_sub, smul_sub]
  abel

theorem shearedBody_theta {C : Config} (hth : C.thermal = none) {nbs : List (List Nat)}
    (hint : Energy.Intact C nbs) {m : Nat → ℝ} {M : Mode} {c : V3} {th theta : Nat → ℝ}
    (h : dilatation (withVolumes (shearedBody C M gamma c) m) nbs.length (encode nbs) th = .ok theta)
    {p : Nat} {ns : List Nat} (hp : nbs[p]? = some ns) :
    theta p = shearTheta C (m p) M p ns := by
  rw [Energy.dilatation_eq h (List.getElem?_eq_some_iff.1 hp).1, shearTheta]
  apply sum_bonds hp
  intro b hb hi
  have hd : C.damage b.b = 0 := by
    obtain ⟨t, ⟨ns, h1, h2⟩, h3⟩ := bondsOf_pos hb
    rw [h3]
    exact hint _ _ _ h1 (List.getElem?_eq_some_iff.1 h2).1
  have he : (withVolumes (shearedBody C M gamma c) m).ext b =
      newLength C M b.i b.j - len (C.x b.j - C.x b.i) := by
    rw [Config.ext, ← shearedBody_dY C M c m]
    simp only [withVolumes, shearedBody, hth]
    rfl
  rw [he, Energy.kap]
  simp only [withVolumes, shearedBody, Config.zeta, Config.om, hd, hi, wt]
  ring

theorem shearedBody_sum {C : Config} (hth : C.thermal = none) {nbs : List (List Nat)}
    (hint : Energy.Intact C nbs) {m : Nat → ℝ} {M : Mode} {c : V3} {theta : Nat → ℝ}
    {p : Nat} {ns : List Nat} (hp : nbs[p]? = some ns) (ht : theta p = shearTheta C (m p) M p ns) :
    Energy.energySum (withVolumes (shearedBody C M gamma c) m) theta
      ((bondsOf nbs).filter fun b => b.i = p) = dev2 C (m p) M p ns := by
  rw [Energy.energySum_eq, dev2]
  apply sum_bonds hp
  intro b hb hi
  have hd : C.damage b.b = 0 := by
    obtain ⟨t, ⟨ns, h1, h2⟩, h3⟩ := bondsOf_pos hb
    rw [h3]
    exact hint _ _ _ h1 (List.getElem?_eq_some_iff.1 h2).1
  have he : (withVolumes (shearedBody C M gamma c) m).ext b =
      newLength C M b.i b.j - len (C.x b.j - C.x b.i) := by
    rw [Config.ext, ← shearedBody_dY C M c m]
    simp only [withVolumes, shearedBody, hth]
    rfl
  rw [he, Energy.kap]
  simp only [withVolumes, shearedBody, Config.zeta, Config.om, hd, hi, wt, ht]
  ring

theorem densityLoop_eq {C : Config} {K mu : ℝ} {scf theta : Nat → ℝ} {bonds : List Bond} {ps : List Nat}
    {W W' : Nat → ℝ} (h : densityLoop C K mu scf theta bonds ps W = .ok W') :
    (∀ p ∈ ps, densityAt C K mu scf theta p (bonds.filter fun b => b.i = p) = .ok (W' p)) ∧
    ∀ p ∉ ps, W' p = W p := by
  induction ps generalizing W with
  | nil => cases h; simp
  | cons q ps ih =>
    rw [densityLoop] at h
    obtain ⟨w, hw, h⟩ := Outcome.bind_eq_ok.1 h
    obtain ⟨h1, h2⟩ := ih h
    constructor
    · intro p hp
      by_cases hps : p ∈ ps
      · exact h1 p hps
      · rcases List.mem_cons.1 hp with rfl | hp
        · rw [h2 p hps, Function.update_self]
          exact hw
        · exact absurd hp hps
    · intro p hp
      rw [h2 p (fun h' => hp (List.mem_cons_of_mem _ h')),
        Function.update_of_ne (fun h' : p = q => hp (by rw [h']; exact List.mem_cons_self))]

theorem densityLoop_ok {C : Config} {K mu : ℝ} {scf theta : Nat → ℝ} {bonds : List Bond} {ps : List Nat}
    (hm : ∀ p ∈ ps, C.m p ≠ 0) (W : Nat → ℝ) :
    ∃ W', densityLoop C K mu scf theta bonds ps W = .ok W' := by
  induction ps generalizing W with
  | nil => exact ⟨W, rfl⟩
  | cons q ps ih =>
    obtain ⟨W', h⟩ := ih (fun p hp => hm p (List.mem_cons_of_mem _ hp)) (Function.update W q _)
    exact ⟨W', Outcome.bind_eq_ok.2 ⟨_, if_neg (hm q List.mem_cons_self), h⟩⟩

theorem energyDensity_eq {C : Config} {K mu : ℝ} {scf theta W0 W : Nat → ℝ} {nbs : List (List Nat)}
    (h : energyDensity C K mu scf theta nbs.length (encode nbs) W0 = .ok W) {p : Nat}
    (hp : p < nbs.length) :
    W p = 1 / 2 * K * theta p ^ 2 + 1 / 2 * (15 * mu / C.m p * scf p) *
      Energy.energySum C theta ((bondsOf nbs).filter fun b => b.i = p) := by
  rw [energyDensity, visited_encode, Outcome.ok_bind] at h
  have := (densityLoop_eq h).1 p (List.mem_range.2 hp)
  unfold densityAt at this
  split at this
  · cases this
  · rw [← Outcome.ok.inj this]
    rw [show (0.5 : ℝ) = 1 / 2 by norm_num]
    ring

theorem shearEnergy_eq {C : Config} {R : Corrected} {K mu : ℝ} {nbs : List (List Nat)} {M : Mode} {c : V3}
    {w : ℝ} {p : Nat} {ns : List Nat} (hp : nbs[p]? = some ns) (hth : C.thermal = none)
    (hint : Energy.Intact C nbs) (h : ShearEnergy C R K mu nbs M c p w) :
    w = 1 / 2 * (15 * mu / R.m p * R.scf p) * dev2 C (R.m p) M p ns := by
  obtain ⟨th, theta, W0, W, h1, h2, rfl⟩ := h
  have ht := shearedBody_theta hth hint h1 hp
  rw [energyDensity_eq h2 (List.getElem?_eq_some_iff.1 hp).1, shearedBody_sum hth hint hp ht]
  simp only [withVolumes]
  ring

theorem shearEnergy_ok {C : Config} {R : Corrected} (K mu : ℝ) {nbs : List (List Nat)}
    (hm : ∀ p < nbs.length, R.m p ≠ 0) (M : Mode) (c : V3) (p : Nat) :
    ∃ w, ShearEnergy C R K mu nbs M c p w := by
  obtain ⟨theta, ht⟩ : ∃ theta, dilatation (withVolumes (shearedBody C M gamma c) R.m) nbs.length
      (encode nbs) (fun _ => 0) = .ok theta := by
    unfold dilatation
    rw [visited_encode]
    refine dilatationLoop_ok (fun b hb => ?_) _
    obtain ⟨ns, h1, _⟩ := mem_bondsOf hb
    exact hm _ (List.getElem?_eq_some_iff.1 h1).1
  obtain ⟨W, hW⟩ := densityLoop_ok (C := withVolumes (shearedBody C M gamma c) R.m) (K := K) (mu := mu)
    (scf := R.scf) (theta := theta) (bonds := bondsOf nbs)
    (ps := List.range nbs.length) (fun p hp => hm p (List.mem_range.1 hp)) (fun _ => 0)
  refine ⟨_, _, theta, fun _ => 0, W, ht, ?_, rfl⟩
  rw [energyDensity, visited_encode, Outcome.ok_bind, hW]

end Verif.ShearFactor
