import Verif.Mech.FrameProps

/-! Lemmas for C23: what the elastic-plastic kernel stores. -/

noncomputable section

namespace Verif.Mech

open Verif Verif.Neigh

theorem pointBonds_pos (p : Nat) (ns : List Nat) (k : Nat) :
    (pointBonds p ns k).map (·.b) = List.range' k ns.length := by
  induction ns generalizing k with
  | nil => rfl
  | cons j ns ih =>
    have := ih (k + 1)
    simp only [pointBonds] at this ⊢
    rw [List.zipIdx_cons, List.map_cons, List.map_cons, this, List.length_cons, List.range'_succ]

theorem bondsFrom_pos (nbs : List (List Nat)) (p k : Nat) :
    (bondsFrom nbs p k).map (·.b) = List.range' k (nbs.map List.length).sum := by
  induction nbs generalizing p k with
  | nil => rfl
  | cons ns nbs ih =>
    rw [bondsFrom, List.map_append, pointBonds_pos, ih, List.map_cons, List.sum_cons,
      List.range'_append_1]

theorem bondsOf_nodup (nbs : List (List Nat)) : ((bondsOf nbs).map (·.b)).Nodup := by
  rw [bondsOf, bondsFrom_pos]
  exact List.nodup_range'

theorem filter_pointBonds (p q : Nat) (ns : List Nat) (k : Nat) :
    ((pointBonds p ns k).filter fun b => b.i = q) = if p = q then pointBonds p ns k else [] := by
  split
  · next h =>
    apply List.filter_eq_self.2
    intro b hb
    obtain ⟨x, _, rfl⟩ := List.mem_map.1 hb
    simpa using h
  · next h =>
    apply List.filter_eq_nil_iff.2
    intro b hb
    obtain ⟨x, _, rfl⟩ := List.mem_map.1 hb
    simpa using h

theorem filter_bondsFrom (nbs : List (List Nat)) (p k q : Nat) :
    ((bondsFrom nbs p k).filter fun b => b.i = p + q) =
      match nbs[q]? with
      | some ns => pointBonds (p + q) ns (k + bondPos nbs q 0)
      | none => [] := by
  induction nbs generalizing p k q with
  | nil => simp [bondsFrom]
  | cons ns nbs ih =>
    rw [bondsFrom, List.filter_append, filter_pointBonds]
    cases q with
    | zero =>
      have h0 : ((bondsFrom nbs (p + 1) (k + ns.length)).filter fun b => b.i = p + 0) = [] := by
        apply List.filter_eq_nil_iff.2
        intro b hb
        have : ∀ (nbs : List (List Nat)) (p k : Nat), b ∈ bondsFrom nbs p k → p ≤ b.i := by
          intro nbs
          induction nbs with
          | nil => intro p k hb; cases hb
          | cons ns nbs ih2 =>
            intro p k hb
            rw [bondsFrom, List.mem_append] at hb
            rcases hb with hb | hb
            · obtain ⟨x, _, rfl⟩ := List.mem_map.1 hb
              exact Nat.le_refl p
            · exact Nat.le_of_succ_le (ih2 _ _ hb)
        have := this _ _ _ hb
        simp
        omega
      rw [h0]
      simp [bondPos]
    | succ q =>
      have h1 := ih (p + 1) (k + ns.length) q
      have e : p + 1 + q = p + (q + 1) := by omega
      rw [e] at h1
      rw [h1, if_neg (by omega), List.nil_append, List.getElem?_cons_succ]
      have e2 : k + ns.length + bondPos nbs q 0 = k + bondPos (ns :: nbs) (q + 1) 0 := by
        simp only [bondPos, List.take_succ_cons, List.map_cons, List.sum_cons]
        omega
      rw [e2]

theorem filter_bondsOf (nbs : List (List Nat)) {p : Nat} {ns : List Nat} (h : nbs[p]? = some ns) :
    ((bondsOf nbs).filter fun b => b.i = p) = ns.zipIdx.map fun (j, t) => ⟨p, j, bondPos nbs p t⟩ := by
  have := filter_bondsFrom nbs 0 0 p
  simp only [h, Nat.zero_add, pointBonds] at this
  rw [bondsOf, this]
  have key : ∀ (ns : List Nat) (a c : Nat), (ns.zipIdx (a + c)).map (fun x => (⟨p, x.1, x.2⟩ : Bond)) =
      (ns.zipIdx c).map fun x => ⟨p, x.1, a + x.2⟩ := by
    intro ns
    induction ns with
    | nil => intro a c; rfl
    | cons j ns ih =>
      intro a c
      rw [List.zipIdx_cons, List.zipIdx_cons, List.map_cons, List.map_cons]
      congr 1
      have := ih a (c + 1)
      rw [← Nat.add_assoc] at this
      exact this
  have h2 := key ns (bondPos nbs p 0) 0
  rw [Nat.add_zero] at h2
  rw [h2]
  rfl

theorem plasticInner_spec {C : Config} {P : PlasticConst} {yv : ℝ} {theta edpN : Nat → ℝ} {fl : Flow}
    {bs : List Bond} {s s' : PlasticState} (h : plasticInner C P yv theta edpN fl bs s = .ok s')
    (hn : (bs.map (·.b)).Nodup) :
    s'.lambda = s.lambda ∧
      (∀ b ∈ bs, ∃ td, plasticUpdate C P yv theta edpN fl b = .ok (td, s'.edp b.b)) ∧
      ∀ q, q ∉ bs.map (·.b) → s'.edp q = s.edp q := by
  induction bs generalizing s with
  | nil => simp only [plasticInner] at h; cases h; simp
  | cons b bs ih =>
    rw [plasticInner] at h
    rw [List.map_cons, List.nodup_cons] at hn
    cases hu : plasticUpdate C P yv theta edpN fl b with
    | ok u =>
      obtain ⟨td, edp'⟩ := u
      rw [hu] at h
      simp only at h
      cases hb : plasticBond C P theta td b with
      | ok f =>
        rw [hb] at h
        obtain ⟨h1, h2, h3⟩ := ih h hn.2
        refine ⟨h1, ?_, ?_⟩
        · intro b' hb'
          rcases List.mem_cons.1 hb' with rfl | hb'
          · refine ⟨td, ?_⟩
            rw [h3 _ hn.1]
            simp [hu]
          · exact h2 b' hb'
        · intro q hq
          rw [List.map_cons, List.mem_cons, not_or] at hq
          rw [h3 q hq.2]
          exact Function.update_of_ne hq.1 _ _
      | fail e => rw [hb] at h; cases h
      | ub => rw [hb] at h; cases h
    | fail e => rw [hu] at h; cases h
    | ub => rw [hu] at h; cases h

theorem plasticPoints_spec {C : Config} {P : PlasticConst} {yv : ℝ} {theta edpN lambdaN : Nat → ℝ}
    {bonds : List Bond} (hn : (bonds.map (·.b)).Nodup) {ps : List Nat} (hps : ps.Nodup)
    {s s' : PlasticState} (h : plasticPoints C P yv theta edpN lambdaN bonds ps s = .ok s') :
    (∀ p ∈ ps, ∃ fl, plasticFlow C P yv theta edpN p (bonds.filter fun b => b.i = p) = .ok fl ∧
        s'.lambda p = fl.newLambda (lambdaN p) ∧
        ∀ b ∈ bonds, b.i = p → ∃ td, plasticUpdate C P yv theta edpN fl b = .ok (td, s'.edp b.b)) ∧
      (∀ p, p ∉ ps → s'.lambda p = s.lambda p) ∧
      ∀ b ∈ bonds, b.i ∉ ps → s'.edp b.b = s.edp b.b := by
  induction ps generalizing s with
  | nil => simp only [plasticPoints] at h; cases h; simp
  | cons p ps ih =>
    rw [plasticPoints] at h
    rw [List.nodup_cons] at hps
    cases hf : plasticFlow C P yv theta edpN p (bonds.filter fun b => b.i = p) with
    | ok fl =>
      rw [hf] at h
      simp only at h
      split at h
      · next s1 hs1 =>
        have hn' : ((bonds.filter fun b => b.i = p).map (·.b)).Nodup :=
          hn.sublist (List.filter_sublist.map _)
        obtain ⟨g1, g2, g3⟩ := plasticInner_spec hs1 hn'
        obtain ⟨k1, k2, k3⟩ := ih hps.2 h
        refine ⟨?_, ?_, ?_⟩
        · intro q hq
          rcases List.mem_cons.1 hq with rfl | hq
          · refine ⟨fl, hf, ?_, ?_⟩
            · rw [k2 _ hps.1, g1]
              simp
            · intro b hb hbi
              rw [k3 b hb (hbi ▸ hps.1)]
              exact g2 b (List.mem_filter.2 ⟨hb, by simpa using hbi⟩)
          · exact k1 q hq
        · intro q hq
          rw [List.mem_cons, not_or] at hq
          rw [k2 q hq.2, g1]
          exact Function.update_of_ne hq.1 _ _
        · intro b hb hbi
          rw [List.mem_cons, not_or] at hbi
          rw [k3 b hb hbi.2, g3]
          intro hmem
          obtain ⟨b', hb', he⟩ := List.mem_map.1 hmem
          have hb'' := List.mem_filter.1 hb'
          have := List.inj_on_of_nodup_map hn hb''.1 hb he
          subst this
          exact hbi.1 (by simpa using hb''.2)
      · cases h
      · cases h
    | fail e => rw [hf] at h; cases h
    | ub => rw [hf] at h; cases h

theorem plastic_spec {C : Config} {P : PlasticConst} {nbs : List (List Nat)}
    {th edpN lambdaN theta : Nat → ℝ} {s s' : PlasticState}
    (h : plasticMaterial C P nbs.length (encode nbs) th edpN lambdaN s = .ok (theta, s')) :
    ∃ yv, yieldValue P C.horizon = .ok yv ∧ ∀ p < nbs.length,
      ∃ fl, plasticFlow C P yv theta edpN p ((bondsOf nbs).filter fun b => b.i = p) = .ok fl ∧
        s'.lambda p = fl.newLambda (lambdaN p) ∧
        ∀ b ∈ bondsOf nbs, b.i = p → ∃ td, plasticUpdate C P yv theta edpN fl b = .ok (td, s'.edp b.b) := by
  unfold plasticMaterial at h
  split at h
  · split at h
    · next s1 hp =>
      cases h
      unfold plasticForce at hp
      rw [visited_encode] at hp
      split at hp
      · next yv hyv =>
        obtain ⟨h1, _⟩ := plasticPoints_spec (bondsOf_nodup nbs) List.nodup_range hp
        exact ⟨yv, hyv, fun p hlt => h1 p (List.mem_range.2 hlt)⟩
      · cases hp
      · cases hp
    · cases h
    · cases h
  · cases h
  · cases h

/-- The squared norm computed by `computeDeviatoricForceStateNorm`, as a sum. -/
def trialSum (C : Config) (theta edp : Nat → ℝ) (alpha : ℝ) (bs : List Bond) : ℝ :=
  (bs.map fun b => ((1 - C.damage b.b) * alpha * (edState C theta b - edp b.b)) ^ 2 * C.v b.j).sum

theorem deviatoricNorm_eq (C : Config) (theta edp : Nat → ℝ) (alpha : ℝ) (bs : List Bond) :
    deviatoricNorm C theta edp alpha bs = Real.sqrt (trialSum C theta edp alpha bs) := by
  have key : ∀ (bs : List Bond) (a : ℝ), bs.foldl (fun norm b =>
      let d := 1 - C.damage b.b
      let tdTrial := d * alpha * 1 * (edState C theta b - edp b.b)
      norm + tdTrial * tdTrial * C.v b.j) a = a + trialSum C theta edp alpha bs := by
    intro bs
    induction bs with
    | nil => intro a; simp [trialSum]
    | cons b bs ih =>
      intro a
      rw [List.foldl_cons, ih]
      simp only [trialSum, List.map_cons, List.sum_cons]
      ring
  rw [deviatoricNorm, key, zero_add]

theorem trialSum_nonneg {C : Config} (hv : ∀ k, 0 ≤ C.v k) (theta edp : Nat → ℝ) (alpha : ℝ)
    (bs : List Bond) : 0 ≤ trialSum C theta edp alpha bs := by
  apply List.sum_nonneg
  intro t ht
  obtain ⟨b, _, rfl⟩ := List.mem_map.1 ht
  exact mul_nonneg (sq_nonneg _) (hv _)

theorem yieldMeasure_eq {C : Config} {mu : ℝ} {nbs : List (List Nat)} {theta edp : Nat → ℝ} {p : Nat}
    {ns : List Nat} (h : nbs[p]? = some ns) :
    yieldMeasure C mu nbs theta edp p ns =
      trialSum C theta edp (15 * mu / C.m p) ((bondsOf nbs).filter fun b => b.i = p) / 2 := by
  rw [filter_bondsOf nbs h, trialSum, List.map_map]
  rfl

/-- In the plastic branch the new elastic extension is the trial one scaled back to the yield surface. -/
theorem update_scaled {C : Config} {P : PlasticConst} {yv : ℝ} {theta edpN : Nat → ℝ} {tn dl : ℝ}
    {b : Bond} {td e : ℝ} (ha : 15 * P.mu / C.m b.i ≠ 0) (hs : Real.sqrt (2 * yv) ≠ 0)
    (hdl : dl = (tn / Real.sqrt (2 * yv) - 1) / (15 * P.mu / C.m b.i))
    (h : plasticUpdate C P yv theta edpN ⟨tn, some dl⟩ b = .ok (td, e)) :
    edState C theta b - e = Real.sqrt (2 * yv) / tn * (edState C theta b - edpN b.b) := by
  simp only [plasticUpdate] at h
  split at h
  · cases h
  · next h0 =>
    cases h
    rw [hdl]
    generalize 15 * P.mu / C.m b.i = a at *
    field_simp
    ring

end Verif.Mech
