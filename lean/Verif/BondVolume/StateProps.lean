import Verif.BondVolume.Lemmas
import Verif.Neigh.Props
import Verif.ShearFactor.Model

/-! # Lists of volumes of bonds (C240) and states computed with them (C241) -/

noncomputable section

namespace Verif.BondVolume

open Verif Verif.Neigh Verif.Mech
open scoped Classical

/-! ### C240 -/

theorem of_inner (c : V3 → V3 → ℝ) (l : List Nat) (x : Nat → V3) (p : Nat) : ∀ (k pos b : Nat),
    bondVolumesOf c l x (x p) k pos = (innerLoop l p pos b k).map fun bs => bs.map fun a => c (x a.i) (x a.j)
  | 0, _, _ => rfl
  | k + 1, pos, b => by
    rw [bondVolumesOf, innerLoop, of_inner c l x p k (pos + 1) (b + 1)]
    cases readAt l pos with
    | ok j => cases innerLoop l p (pos + 1) (b + 1) k <;> rfl
    | fail e => rfl
    | ub => rfl

theorem of_outer (c : V3 → V3 → ℝ) (l : List Nat) (x : Nat → V3) : ∀ (n p pos b : Nat),
    bondVolumes c l x n p pos = (outerLoop l n p pos b).map fun bs => bs.map fun a => c (x a.i) (x a.j)
  | 0, _, _, _ => rfl
  | n + 1, p, pos, b => by
    rw [bondVolumes, outerLoop]
    cases readAt l pos with
    | ok k =>
      simp only [Outcome.ok_bind]
      rw [of_inner c l x p k (pos + 1) b, of_outer c l x n (p + 1) (pos + 1 + k) (b + k)]
      cases innerLoop l p (pos + 1) b k with
      | ok bs =>
        cases outerLoop l n (p + 1) (pos + 1 + k) (b + k) with
        | ok cs => simp [Outcome.map]
        | fail e => rfl
        | ub => rfl
      | fail e => rfl
      | ub => rfl
    | fail e => rfl
    | ub => rfl

/-- C240.  For every calculator the volumes of the bonds of all points are stored in the order in which the kernels visit the bonds: the
volume at the position of the bond data of a bond is that of the bond. -/
theorem C240_order (c : V3 → V3 → ℝ) (x : Nat → V3) (nbs : List (List Nat)) (rest : List Nat) :
    ∃ vs bs, bondVolumes c (encode nbs ++ rest) x nbs.length 0 0 = .ok vs ∧
      visitedBonds nbs.length (encode nbs ++ rest) = .ok bs ∧ vs.length = (nbs.map List.length).sum ∧
      ∀ a ∈ bs, vs[a.b]? = some (c (x a.i) (x a.j)) := by
  obtain ⟨bs, h1, _, h3⟩ := C09_visits nbs rest
  refine ⟨bs.map fun a => c (x a.i) (x a.j), bs, ?_, h1, ?_, ?_⟩
  · rw [of_outer c _ x nbs.length 0 0 0]
    rw [visitedBonds] at h1
    rw [h1]
    rfl
  · rw [List.length_map, ← List.length_range (n := (nbs.map List.length).sum), ← h3, List.length_map]
  · intro a ha
    obtain ⟨i, hi, rfl⟩ := List.mem_iff_getElem.1 ha
    have e : bs[i].b = i := by
      have : (bs.map Bond.b)[i]? = some i := by
        rw [h3]
        rw [List.getElem?_range]
        have := congrArg List.length h3
        rw [List.length_map, List.length_range] at this
        omega
      rw [List.getElem?_map, List.getElem?_eq_getElem hi] at this
      simpa using this
    rw [e, List.getElem?_map, List.getElem?_eq_getElem hi]
    rfl

theorem of_mid (c : V3 → V3 → ℝ) (x : Nat → V3) (P : V3) : ∀ (ns pre rest : List Nat),
    bondVolumesOf c (pre ++ ns ++ rest) x P ns.length pre.length = .ok (ns.map fun j => c P (x j))
  | [], _, _ => rfl
  | j :: ns, pre, rest => by
    have h := of_mid c x P ns (pre ++ [j]) rest
    rw [List.length_append, List.length_singleton] at h
    rw [List.length_cons, bondVolumesOf, show pre ++ j :: ns ++ rest = pre ++ j :: (ns ++ rest) by simp,
      readAt_mid pre j (ns ++ rest) pre.length rfl]
    rw [show pre ++ [j] ++ ns ++ rest = pre ++ j :: (ns ++ rest) by simp] at h
    simp only [Outcome.ok_bind]
    rw [h]
    rfl

/-- C240.  The function for one point gives the volumes of its bonds in the order of its neighbors. -/
theorem C240_point (c : V3 → V3 → ℝ) (x : Nat → V3) (X : V3) (ns rest : List Nat) :
    bondVolumesAt c X (ns.length :: (ns ++ rest)) x = .ok (ns.map fun j => c X (x j)) := by
  have h := of_mid c x X ns [ns.length] rest
  rw [bondVolumesAt, show readAt (ns.length :: (ns ++ rest)) 0 = .ok ns.length from rfl]
  exact h

/-- C240.  A list that is shorter than the neighborhoods is read past its end. -/
theorem C240_short (c : V3 → V3 → ℝ) (x : Nat → V3) (nbs : List (List Nat)) (l : List Nat) (hp : l <+: encode nbs)
    (hl : l ≠ encode nbs) : bondVolumes c l x nbs.length 0 0 = .ub := by
  rw [of_outer c l x nbs.length 0 0 0]
  have := C09_no_slack nbs l hp hl
  rw [visitedBonds] at this
  rw [this]
  rfl

example : ∃ vs, bondVolumes (fun P Q => Q 0 - P 0) (encode [[1, 2], [0]]) (fun i => ![(i : ℝ), 0, 0]) 2 0 0 = .ok vs ∧
    vs[(1 : Nat)]? = some (2 : ℝ) ∧ vs[(2 : Nat)]? = some (-1 : ℝ) := by
  obtain ⟨vs, bs, h1, h2, _, h4⟩ := C240_order (fun P Q => Q 0 - P 0) (fun i => ![(i : ℝ), 0, 0]) [[1, 2], [0]] []
  have e : visitedBonds 2 (encode [[1, 2], [0]]) = .ok [⟨0, 1, 0⟩, ⟨0, 2, 1⟩, ⟨1, 0, 2⟩] := by decide
  rw [List.append_nil] at h1 h2
  rw [show ([[1, 2], [0]] : List (List Nat)).length = 2 from rfl] at h1 h2
  rw [h2] at e
  have e := Outcome.ok.inj e
  subst e
  refine ⟨vs, h1, ?_, ?_⟩
  · have := h4 ⟨0, 2, 1⟩ (by simp)
    refine this.trans ?_
    norm_num
  · have := h4 ⟨1, 0, 2⟩ (by simp)
    refine this.trans ?_
    norm_num

/-! ### C241 -/

theorem paired_eq (ns rest : List Nat) (bv : List ℝ) (h : ns.length ≤ bv.length) :
    paired (ns.length :: (ns ++ rest)) bv = .ok (ns.zip bv) := by
  have := neighborsAt_mid [] ns [] rest
  rw [List.nil_append, encode_cons, encode_nil, List.append_nil, List.length_nil] at this
  rw [paired, show ns.length :: (ns ++ rest) = ns.length :: ns ++ rest by simp, this]
  simp only [Outcome.ok_bind]
  rw [if_pos h]

theorem weighted_eq (w : ℝ → ℝ → ℝ) (h : ℝ) (X : V3) (x : Nat → V3) (bv : List ℝ) (l : List Nat) {bs : List (Nat × ℝ)}
    (hb : paired l bv = .ok bs) : weightedVolume w h X x bv l = .ok (weight (fun r => w r h) X x bs) := by
  rw [weightedVolume, hb]
  simp only [Outcome.ok_bind]
  rw [foldl_add, zero_add, weight]
  congr 2
  refine List.map_congr_left fun b _ => ?_
  have e : (x b.1 - X) 0 * (x b.1 - X) 0 + (x b.1 - X) 1 * (x b.1 - X) 1 + (x b.1 - X) 2 * (x b.1 - X) 2 =
      away X (x b.1) ^ 2 := by
    rw [away, Real.sq_sqrt (by positivity)]
    simp only [Pi.sub_apply]
    ring
  rw [e, Real.sqrt_sq (show 0 ≤ away X (x b.1) from Real.sqrt_nonneg _)]

theorem sum_scaled {α : Type} (f g : α → ℝ) (k : ℝ) (l : List α) (h : ∀ a ∈ l, f a = k * g a) :
    (l.map f).sum = k * (l.map g).sum := by
  induction l with
  | nil => simp
  | cons a l ih =>
    rw [List.map_cons, List.sum_cons, List.map_cons, List.sum_cons, ih fun b hb => h b (by simp [hb]), h a (by simp)]
    ring

theorem dilatation_stretch (w : ℝ → ℝ → ℝ) (h : ℝ) (X : V3) (x : Nat → V3) (Y : V3) (y : Nat → V3) (bv : List ℝ) (l : List Nat)
    {bs : List (Nat × ℝ)} (hb : paired l bv = .ok bs) {s m theta : ℝ}
    (hs : ∀ b ∈ bs, away Y (y b.1) = s * away X (x b.1)) (ht : dilatation w h X x Y y bv m l = .ok theta) :
    theta = 3 * (s - 1) * weight (fun r => w r h) X x bs / m := by
  rw [dilatation, hb] at ht
  simp only [Outcome.ok_bind] at ht
  split_ifs at ht with hc
  have e := Outcome.ok.inj ht
  rw [foldl_add, zero_add] at e
  rw [← e, mul_div_right_comm, weight]
  refine sum_scaled _ _ _ _ fun b hbm => ?_
  rw [← away_len, ← away_len, hs b hbm]
  ring

/-- C241.  Bonds that are all stretched in the same proportion give the exact dilatation, if the weighted volume is that of the same bonds
and not zero: a ball that grows by the factor `s` has the (linear) change of volume `3 (s - 1)`. -/
theorem C241_dilatation (w : ℝ → ℝ → ℝ) (h : ℝ) (X : V3) (x : Nat → V3) (Y : V3) (y : Nat → V3) (bv : List ℝ) (ns rest : List Nat)
    (hv : ns.length ≤ bv.length) {s m theta : ℝ} (hm : weightedVolume w h X x bv (ns.length :: (ns ++ rest)) = .ok m) (hm0 : m ≠ 0)
    (hs : ∀ j ∈ ns, away Y (y j) = s * away X (x j))
    (ht : dilatation w h X x Y y bv m (ns.length :: (ns ++ rest)) = .ok theta) : theta = 3 * (s - 1) := by
  have hb := paired_eq ns rest bv hv
  rw [weighted_eq w h X x bv _ hb] at hm
  rw [dilatation_stretch w h X x Y y bv _ hb (fun b hbm => hs b.1 (List.of_mem_zip hbm).1) ht, Outcome.ok.inj hm]
  field_simp

/-- C241.  What is computed for the norm of the deviatoric part of such a deformation; `m'` is the weighted volume with the influence
function that has been selected. -/
theorem C241_norm_partial (selected w : ℝ → ℝ → ℝ) (h : ℝ) (X : V3) (x : Nat → V3) (Y : V3) (y : Nat → V3) (bv : List ℝ)
    (ns rest : List Nat) (hv : ns.length ≤ bv.length) {s m m' d : ℝ}
    (hm : weightedVolume w h X x bv (ns.length :: (ns ++ rest)) = .ok m) (hm0 : m ≠ 0)
    (hm' : weightedVolume selected h X x bv (ns.length :: (ns ++ rest)) = .ok m')
    (hs : ∀ j ∈ ns, away Y (y j) = s * away X (x j))
    (hd : deviatoricNorm2 selected w h X x Y y bv m (ns.length :: (ns ++ rest)) = .ok d) :
    d = (s - 1) ^ 2 * (m - m') ^ 2 / m := by
  have hb := paired_eq ns rest bv hv
  rw [deviatoricNorm2, Outcome.bind_eq_ok] at hd
  obtain ⟨theta, ht, hd⟩ := hd
  rw [hb] at hd
  simp only [Outcome.ok_bind] at hd
  have e := Outcome.ok.inj hd
  rw [weighted_eq w h X x bv _ hb] at hm
  rw [weighted_eq selected h X x bv _ hb] at hm'
  have hs' : ∀ b ∈ ns.zip bv, away Y (y b.1) = s * away X (x b.1) := fun b hbm => hs b.1 (List.of_mem_zip hbm).1
  have et := dilatation_stretch selected h X x Y y bv _ hb hs' ht
  rw [Outcome.ok.inj hm'] at et
  have em := Outcome.ok.inj hm
  rw [foldl_add, zero_add] at e
  rw [← e, sum_scaled _ (fun b => w (away X (x b.1)) h * away X (x b.1) ^ 2 * b.2) ((s - 1) ^ 2 * (m - m') ^ 2 / m ^ 2) _
    fun b hbm => ?_]
  · have : ((ns.zip bv).map fun b => w (away X (x b.1)) h * away X (x b.1) ^ 2 * b.2).sum = m := em
    rw [this]
    field_simp
  · rw [← away_len, ← away_len, hs' b hbm, et]
    field_simp

/-- C241.  With the influence function that has been selected such a deformation has no deviatoric part. -/
theorem C241_no_shear_partial (w : ℝ → ℝ → ℝ) (h : ℝ) (X : V3) (x : Nat → V3) (Y : V3) (y : Nat → V3) (bv : List ℝ)
    (ns rest : List Nat) (hv : ns.length ≤ bv.length) {s m d : ℝ}
    (hm : weightedVolume w h X x bv (ns.length :: (ns ++ rest)) = .ok m) (hm0 : m ≠ 0)
    (hs : ∀ j ∈ ns, away Y (y j) = s * away X (x j))
    (hd : deviatoricNorm2 w w h X x Y y bv m (ns.length :: (ns ++ rest)) = .ok d) : d = 0 := by
  rw [C241_norm_partial w w h X x Y y bv ns rest hv hm hm0 hm hs hd]
  simp

/-- C241.  The functions return when the volumes are there and the weighted volume is not zero; a volume that is not there is read past the
end of the array. -/
theorem C241_defined (selected w : ℝ → ℝ → ℝ) (h : ℝ) (X : V3) (x : Nat → V3) (Y : V3) (y : Nat → V3) (bv : List ℝ) (m : ℝ)
    (ns rest : List Nat) :
    (ns.length ≤ bv.length → (∃ m', weightedVolume w h X x bv (ns.length :: (ns ++ rest)) = .ok m') ∧
      (m ≠ 0 ∨ ns = [] → (∃ t, dilatation w h X x Y y bv m (ns.length :: (ns ++ rest)) = .ok t) ∧
        ∃ d, deviatoricNorm2 selected w h X x Y y bv m (ns.length :: (ns ++ rest)) = .ok d)) ∧
    (bv.length < ns.length → weightedVolume w h X x bv (ns.length :: (ns ++ rest)) = .ub ∧
      dilatation w h X x Y y bv m (ns.length :: (ns ++ rest)) = .ub ∧
      deviatoricNorm2 selected w h X x Y y bv m (ns.length :: (ns ++ rest)) = .ub) := by
  refine ⟨fun hv => ?_, fun hv => ?_⟩
  · have hb := paired_eq ns rest bv hv
    refine ⟨⟨_, weighted_eq w h X x bv _ hb⟩, fun hm => ?_⟩
    have hc : ¬ (ns.zip bv ≠ [] ∧ m = 0) := by
      rintro ⟨c1, c2⟩
      rcases hm with hm | hm
      · exact hm c2
      · rw [hm] at c1
        exact c1 rfl
    have hdil : ∀ w, ∃ t, dilatation w h X x Y y bv m (ns.length :: (ns ++ rest)) = .ok t := by
      intro w
      rw [dilatation, hb]
      simp only [Outcome.ok_bind]
      rw [if_neg hc]
      exact ⟨_, rfl⟩
    refine ⟨hdil w, ?_⟩
    obtain ⟨t, ht⟩ := hdil selected
    rw [deviatoricNorm2, ht]
    simp only [Outcome.ok_bind]
    rw [hb]
    exact ⟨_, rfl⟩
  · have hb : paired (ns.length :: (ns ++ rest)) bv = .ub := by
      have := neighborsAt_mid [] ns [] rest
      rw [List.nil_append, encode_cons, encode_nil, List.append_nil, List.length_nil] at this
      rw [paired, show ns.length :: (ns ++ rest) = ns.length :: ns ++ rest by simp, this]
      simp only [Outcome.ok_bind]
      rw [if_neg (by omega)]
    have hdil : ∀ w, dilatation w h X x Y y bv m (ns.length :: (ns ++ rest)) = .ub := by
      intro w
      rw [dilatation, hb]
      rfl
    refine ⟨?_, hdil w, ?_⟩
    · rw [weightedVolume, hb]
      rfl
    · rw [deviatoricNorm2, hdil]
      rfl

theorem foldl_zip_map (f : ℝ → Nat × ℝ → ℝ) (v : Nat → ℝ) : ∀ (ns : List Nat) (a : ℝ),
    (ns.zip (ns.map v)).foldl f a = ns.foldl (fun a j => f a (j, v j)) a
  | [], _ => rfl
  | j :: ns, a => by
    rw [List.map_cons, List.zip_cons_cons, List.foldl_cons, List.foldl_cons, foldl_zip_map f v ns]

/-- C241.  If the volume of a bond is the volume of the neighbor, the results are those of the functions that take the volumes of the
points. -/
theorem C241_agrees (C : Config) (m : ℝ) (y : Nat → V3) (p : Nat) (ns rest : List Nat) :
    weightedVolume C.omega C.horizon (C.x p) C.x (ns.map C.v) (ns.length :: (ns ++ rest)) = .ok (weightedVolumeAt C p ns) ∧
    dilatation C.omega C.horizon (C.x p) C.x (y p) y (ns.map C.v) m (ns.length :: (ns ++ rest)) =
      ShearFactor.pointDilatation C m y p ns ∧
    deviatoricNorm2 C.omega C.omega C.horizon (C.x p) C.x (y p) y (ns.map C.v) m (ns.length :: (ns ++ rest)) =
      ShearFactor.deviatoricNorm2 C m y p ns := by
  have hb := paired_eq ns rest (ns.map C.v) (by simp)
  have hdil : dilatation C.omega C.horizon (C.x p) C.x (y p) y (ns.map C.v) m (ns.length :: (ns ++ rest)) =
      ShearFactor.pointDilatation C m y p ns := by
    rw [dilatation, hb, ShearFactor.pointDilatation]
    simp only [Outcome.ok_bind]
    have hn : ns.zip (ns.map C.v) ≠ [] ↔ ns ≠ [] := by cases ns <;> simp
    rw [foldl_zip_map]
    simp only [hn]
  refine ⟨?_, hdil, ?_⟩
  · rw [weightedVolume, hb]
    simp only [Outcome.ok_bind]
    rw [foldl_zip_map]
    rfl
  · rw [deviatoricNorm2, ShearFactor.deviatoricNorm2, hdil, hb]
    simp only [Outcome.ok_bind]
    congr 1
    funext theta
    rw [foldl_zip_map]

/-- Neighbors at the distances one and two, volumes one. -/
def two : Nat → V3 := fun i => ![(i : ℝ), 0, 0]

/-- The same twice as far. -/
def twice : Nat → V3 := fun i => ![2 * (i : ℝ), 0, 0]

theorem two_away (j : Nat) : away 0 (two j) = j ∧ away 0 (twice j) = 2 * j := by
  constructor
  · rw [away, show (two j 0 - (0 : V3) 0) ^ 2 + (two j 1 - (0 : V3) 1) ^ 2 + (two j 2 - (0 : V3) 2) ^ 2 = (j : ℝ) ^ 2 by
      simp [two]]
    exact Real.sqrt_sq (by positivity)
  · rw [away, show (twice j 0 - (0 : V3) 0) ^ 2 + (twice j 1 - (0 : V3) 1) ^ 2 + (twice j 2 - (0 : V3) 2) ^ 2 =
      (2 * (j : ℝ)) ^ 2 by simp [twice]]
    exact Real.sqrt_sq (by positivity)

theorem two_weight (w : ℝ → ℝ → ℝ) : weightedVolume w 3 0 two [1, 1] (2 :: ([1, 2] ++ [])) = .ok (w 1 3 + 4 * w 2 3) := by
  refine (weighted_eq w 3 0 two [1, 1] _ (paired_eq [1, 2] [] [1, 1] (by simp))).trans ?_
  congr 1
  simp only [weight, List.zip_cons_cons, List.zip_nil_right, List.map_cons, List.map_nil, List.sum_cons, List.sum_nil, (two_away _).1]
  push_cast
  ring

/-- C241 is false with another influence function than the one that has been selected: a uniform expansion, with influence one of all
bonds while the influence selected is the inverse of the distance, is given a deviatoric part. -/
theorem C241_default : ∃ d, deviatoricNorm2 (fun r _ => 1 / r) (fun _ _ => 1) 3 0 two 0 twice [1, 1] 5 (2 :: ([1, 2] ++ [])) = .ok d ∧
    weightedVolume (fun _ _ => 1) 3 0 two [1, 1] (2 :: ([1, 2] ++ [])) = .ok 5 ∧
    (∀ j ∈ [1, 2], away 0 (twice j) = 2 * away 0 (two j)) ∧ d = 4 / 5 := by
  obtain ⟨d, hd⟩ := (((C241_defined (fun r _ => 1 / r) (fun _ _ => 1) 3 0 two 0 twice [1, 1] 5 [1, 2] []).1 (by simp)).2
    (Or.inl (by norm_num))).2
  have h5 : weightedVolume (fun _ _ => 1) 3 0 two [1, 1] (2 :: ([1, 2] ++ [])) = .ok 5 := by
    rw [two_weight]
    norm_num
  have hs : ∀ j ∈ [1, 2], away 0 (twice j) = 2 * away 0 (two j) := by
    intro j _
    rw [(two_away j).1, (two_away j).2]
  refine ⟨d, hd, h5, hs, ?_⟩
  rw [C241_norm_partial (fun r _ => 1 / r) (fun _ _ => 1) 3 0 two 0 twice [1, 1] [1, 2] [] (by simp) h5 (by norm_num)
    (two_weight _) hs hd]
  norm_num

/-- With the influence function that has been selected: the dilatation three, no deviatoric part. -/
example : dilatation (fun _ _ => 1) 3 0 two 0 twice [1, 1] 5 (2 :: ([1, 2] ++ [])) = .ok 3 ∧
    deviatoricNorm2 (fun _ _ => 1) (fun _ _ => 1) 3 0 two 0 twice [1, 1] 5 (2 :: ([1, 2] ++ [])) = .ok 0 := by
  obtain ⟨⟨t, ht⟩, ⟨d, hd⟩⟩ := ((C241_defined (fun _ _ => 1) (fun _ _ => 1) 3 0 two 0 twice [1, 1] 5 [1, 2] []).1 (by simp)).2
    (Or.inl (by norm_num))
  have h5 : weightedVolume (fun _ _ => 1) 3 0 two [1, 1] (2 :: ([1, 2] ++ [])) = .ok 5 := by
    rw [two_weight]
    norm_num
  have hs : ∀ j ∈ [1, 2], away 0 (twice j) = 2 * away 0 (two j) := by
    intro j _
    rw [(two_away j).1, (two_away j).2]
  have e1 := C241_dilatation (fun _ _ => 1) 3 0 two 0 twice [1, 1] [1, 2] [] (by simp) h5 (by norm_num) hs ht
  have e2 := C241_no_shear_partial (fun _ _ => 1) 3 0 two 0 twice [1, 1] [1, 2] [] (by simp) h5 (by norm_num) hs hd
  rw [e1] at ht
  rw [e2] at hd
  refine ⟨?_, hd⟩
  norm_num at ht
  exact ht

end Verif.BondVolume
