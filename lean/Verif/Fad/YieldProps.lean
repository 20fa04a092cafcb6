import Verif.Fad.PlasticLemmas
import Verif.Mech.HistoryProps

/-! # Property theorems: the elastic-plastic material below yield (C219) -/

noncomputable section

namespace Verif.Fad

open Verif Verif.Neigh Verif.Mech Verif.Tangent Verif.Energy Verif.Lps
open scoped Classical

theorem sum_by_point {n : Nat} (f : Bond → V3) : ∀ {l : List Bond}, (∀ b ∈ l, b.i < n) →
    ((List.range n).map fun p => ((l.filter fun b => b.i = p).map f).sum).sum = (l.map f).sum
  | [], _ => by simp
  | b :: l, h => by
    have ih := sum_by_point f (l := l) fun b hb => h b (List.mem_cons_of_mem _ hb)
    have e : ∀ p, (((b :: l).filter fun b => b.i = p).map f).sum =
        (if b.i = p then f b else 0) + ((l.filter fun b => b.i = p).map f).sum := by
      intro p
      rw [List.filter_cons]
      by_cases hp : b.i = p
      · simp [hp]
      · simp [hp]
    have h1 : ((List.range n).map fun p => if b.i = p then f b else 0).sum = f b := by
      have : ((List.range n).map fun p => if b.i = p then f b else 0).sum = ∑ p ∈ Finset.range n, if b.i = p then f b else 0 := rfl
      rw [this, Finset.sum_ite_eq, if_pos (Finset.mem_range.2 (h b List.mem_cons_self))]
    simp only [e]
    rw [List.sum_map_add, h1, ih, List.map_cons, List.sum_cons]

theorem plasticPoints_elastic {C : Config} {P : PlasticConst} {yv : ℝ} {theta edpN : Nat → ℝ} (lambdaN : Nat → ℝ) {bonds : List Bond}
    (hd : ∀ b ∈ bonds, C.dY b ≠ 0) : ∀ {ps : List Nat} (s : PlasticState),
    (∀ p ∈ ps, C.m p ≠ 0 ∧ deviatoricNorm C theta edpN (15 * P.mu / C.m p) (bonds.filter fun b => b.i = p) *
      deviatoricNorm C theta edpN (15 * P.mu / C.m p) (bonds.filter fun b => b.i = p) / 2 ≤ yv) →
    ∃ s', plasticPoints C P yv theta edpN lambdaN bonds ps s = .ok s' ∧ ∀ k, s'.F k = s.F k +
      (ps.map fun p => ((bonds.filter fun b => b.i = p).map fun b => pull (selfVol C) (nbrVol C) k
        (b, pairOf C P edpN yv (theta b.i) none b)).sum).sum
  | [], s, _ => ⟨s, rfl, fun k => by simp⟩
  | p :: ps, s, h => by
    obtain ⟨hm, hy⟩ := h p List.mem_cons_self
    rw [plasticPoints]
    have hfl : plasticFlow C P yv theta edpN p (bonds.filter fun b => b.i = p) =
        .ok ⟨deviatoricNorm C theta edpN (15 * P.mu / C.m p) (bonds.filter fun b => b.i = p), none⟩ := by
      unfold plasticFlow
      rw [if_neg hm]
      simp only
      rw [if_neg (by linarith)]
    rw [hfl]
    simp only
    have hi : ∀ b ∈ bonds.filter fun b => b.i = p, theta b.i = theta p ∧ C.dY b ≠ 0 := by
      intro b hb
      obtain ⟨h1, h2⟩ := List.mem_filter.1 hb
      have : b.i = p := by simpa using h2
      exact ⟨by rw [this], hd b h1⟩
    obtain ⟨s1, h1, h2⟩ := plasticInner_eq (C := C) (P := P) (yv := yv) (th := theta p) (theta := theta) (edp := edpN)
      (fl := ⟨deviatoricNorm C theta edpN (15 * P.mu / C.m p) (bonds.filter fun b => b.i = p), none⟩) (norm := none)
      (.inl ⟨rfl, rfl⟩) (bs := bonds.filter fun b => b.i = p)
      { s with lambda := Function.update s.lambda p (Flow.newLambda
        ⟨deviatoricNorm C theta edpN (15 * P.mu / C.m p) (bonds.filter fun b => b.i = p), none⟩ (lambdaN p)) } hi
    rw [h1]
    simp only
    obtain ⟨s', h3, h4⟩ := plasticPoints_elastic lambdaN hd (ps := ps) s1 fun q hq => h q (List.mem_cons_of_mem _ hq)
    refine ⟨s', h3, fun k => ?_⟩
    rw [h4, h2, List.map_cons, List.sum_cons, add_assoc]
    congr 3
    apply List.map_congr_left
    intro b hb
    rw [(hi b hb).1]

/-- **C219** is false unless the influence function is one: the elastic-plastic material uses it for the dilatation but not for
the forces.  If it has the value `w` on all bonds, the forces of the elastic material with the same moduli are `w` times those
of the elastic-plastic material in a step without flow (bonds intact or broken, without plastic extension). -/
theorem C219_influence_ignored (C : Config) (P : PlasticConst) (nbs : List (List Nat)) (hv : ∀ k, 0 ≤ C.v k)
    (hth : C.thermal = none) (w : ℝ) (th edpN lambdaN theta : Nat → ℝ) (s : PlasticState) (F : Nat → V3)
    (hb : ∀ p ns t j, nbs[p]? = some ns → ns[t]? = some j → C.omega (len (C.x j - C.x p)) C.horizon = w ∧
      (C.damage (bondPos nbs p t) = 0 ∨ C.damage (bondPos nbs p t) = 1) ∧ edpN (bondPos nbs p t) = 0)
    (hm : ∀ p < nbs.length, C.m p ≠ 0) (yv : ℝ) (hyv : yieldValue P C.horizon = .ok yv)
    (h : elasticMaterial C P.K P.mu nbs.length (encode nbs) th = .ok (theta, F))
    (hel : ∀ p ns, nbs[p]? = some ns → yieldMeasure C P.mu nbs theta edpN p ns ≤ yv) :
    ∃ s', plasticMaterial C P nbs.length (encode nbs) th edpN lambdaN s = .ok (theta, s') ∧ ∀ k, F k = w • s'.F k := by
  obtain ⟨hdil, hprop⟩ := elastic_parts h
  have hloc : ({ C with thermal := none } : Config) = C := by rw [← hth]
  obtain ⟨s', h1, h2⟩ := plasticPoints_elastic (C := C) (P := P) (yv := yv) (theta := theta) (edpN := edpN) lambdaN
    (bonds := bondsOf nbs) (fun b hb => (hprop b hb).2) (ps := List.range nbs.length) { s with F := 0 } (by
      intro p hp
      have hp := List.mem_range.1 hp
      refine ⟨hm p hp, ?_⟩
      have := hel p nbs[p] (List.getElem?_eq_getElem hp)
      rw [yieldMeasure_eq (List.getElem?_eq_getElem hp)] at this
      rw [Mech.deviatoricNorm_eq, Real.mul_self_sqrt (trialSum_nonneg hv _ _ _ _)]
      exact this)
  refine ⟨s', ?_, fun k => ?_⟩
  · unfold plasticMaterial
    rw [hloc, hdil]
    simp only
    unfold plasticForce
    rw [hyv]
    simp only
    rw [visited_encode]
    simp only
    rw [h1]
  · obtain ⟨e1, e2⟩ := elastic_at h
    rw [e2, h2, sum_by_point (fun b => pull (selfVol C) (nbrVol C) k (b, pairOf C P edpN yv (theta b.i) none b))
      fun b hb => by
        obtain ⟨t, ⟨ns, h1, _⟩, _⟩ := bondsOf_pos hb
        exact (List.getElem?_eq_some_iff.1 h1).1]
    simp only [Pi.zero_apply, zero_add]
    have key : ∀ l : List Bond, (∀ b ∈ l, (tension C P.K P.mu (theta' C nbs) b / C.dY b) • C.yd b =
        w • pairOf C P edpN yv (theta b.i) none b) →
        (l.map fun b => pull (selfVol C) (nbrVol C) k (b, (tension C P.K P.mu (theta' C nbs) b / C.dY b) • C.yd b)).sum =
        w • (l.map fun b => pull (selfVol C) (nbrVol C) k (b, pairOf C P edpN yv (theta b.i) none b)).sum := by
      intro l
      induction l with
      | nil => simp
      | cons b l ih =>
        intro hl
        rw [List.map_cons, List.map_cons, List.sum_cons, List.sum_cons, ih fun b hb => hl b (List.mem_cons_of_mem _ hb), smul_add,
          hl b List.mem_cons_self]
        congr 1
        unfold pull
        funext c
        simp only [Pi.smul_apply, Pi.sub_apply, smul_eq_mul]
        split <;> split <;> simp <;> ring
    apply key
    intro b hbm
    obtain ⟨t, ⟨ns, n1, n2⟩, hpos⟩ := bondsOf_pos hbm
    obtain ⟨b1, b2, b3⟩ := hb b.i ns t b.j n1 n2
    rw [← hpos] at b2 b3
    have hom : C.om b = w := b1
    have hext : C.ext b = C.dY b - C.zeta b := by
      unfold Config.ext
      rw [hth]
    have ht : theta' C nbs b.i = theta b.i := (e1 b.i (List.getElem?_eq_some_iff.1 n1).1).symm
    unfold pairOf tensionOf tension tdOf trialOf
    rw [hom, hext, ht, b3]
    rw [smul_smul]
    congr 1
    rcases b2 with b2 | b2
    · rw [b2]
      ring
    · rw [b2]
      ring

/-- **C219** As long as no point yields the elastic-plastic material responds like the elastic material with the same moduli:
same dilatation, same forces.  Missing: other influence functions than one, for which this is false
(`C219_influence_ignored`), and bonds that are damaged in part. -/
theorem C219_below_yield_partial (C : Config) (P : PlasticConst) (nbs : List (List Nat)) (hv : ∀ k, 0 ≤ C.v k)
    (hth : C.thermal = none) (th edpN lambdaN theta : Nat → ℝ) (s : PlasticState) (F : Nat → V3)
    (hb : ∀ p ns t j, nbs[p]? = some ns → ns[t]? = some j → C.omega (len (C.x j - C.x p)) C.horizon = 1 ∧
      (C.damage (bondPos nbs p t) = 0 ∨ C.damage (bondPos nbs p t) = 1) ∧ edpN (bondPos nbs p t) = 0)
    (hm : ∀ p < nbs.length, C.m p ≠ 0) (yv : ℝ) (hyv : yieldValue P C.horizon = .ok yv)
    (h : elasticMaterial C P.K P.mu nbs.length (encode nbs) th = .ok (theta, F))
    (hel : ∀ p ns, nbs[p]? = some ns → yieldMeasure C P.mu nbs theta edpN p ns ≤ yv) :
    ∃ s', plasticMaterial C P nbs.length (encode nbs) th edpN lambdaN s = .ok (theta, s') ∧ s'.F = F := by
  obtain ⟨s', h1, h2⟩ := C219_influence_ignored C P nbs hv hth 1 th edpN lambdaN theta s F hb hm yv hyv h hel
  exact ⟨s', h1, funext fun k => by rw [h2, one_smul]⟩

/-- Two points at distance one, stretched to twice the distance; the influence function is `w`, and so is the weighted volume. -/
def pairUnder (w : ℝ) : Config where
  x := fun i => ![i, 0, 0]
  y := fun i => ![2 * i, 0, 0]
  v := fun _ => 1
  m := fun _ => w
  damage := fun _ => 0
  omega := fun _ _ => w
  horizon := 2
  thermal := none

/-- In the stretched pair of points the elastic forces are `w` times the elastic-plastic ones, and not zero. -/
theorem pairUnder_forces (w : ℝ) (hw : w ≠ 0) : ∃ theta F s', Weighted (pairUnder w) [[1], [0]] ∧
    elasticMaterial (pairUnder w) 1 1 2 (encode [[1], [0]]) (fun _ => 0) = .ok (theta, F) ∧
    plasticMaterial (pairUnder w) ⟨1, 1, 1, none⟩ 2 (encode [[1], [0]]) (fun _ => 0) (fun _ => 0) (fun _ => 0) ⟨0, 0, 0⟩ = .ok (theta, s') ∧
    (∀ k, F k = w • s'.F k) ∧ F 0 ≠ 0 := by
  have hbs : bondsOf [[1], [0]] = [⟨0, 1, 0⟩, ⟨1, 0, 1⟩] := by decide
  have hz : (pairUnder w).zeta ⟨0, 1, 0⟩ = 1 ∧ (pairUnder w).zeta ⟨1, 0, 1⟩ = 1 ∧ (pairUnder w).dY ⟨0, 1, 0⟩ = 2 ∧
      (pairUnder w).dY ⟨1, 0, 1⟩ = 2 := by
    refine ⟨?_, ?_, ?_, ?_⟩ <;>
      simp [Config.zeta, Config.dY, Config.yd, pairUnder, len]
  obtain ⟨z1, z2, z3, z4⟩ := hz
  have hW : Weighted (pairUnder w) [[1], [0]] := by
    refine ⟨fun _ => w, ?_⟩
    obtain ⟨m', h1, h2, h3⟩ := C22_stored (pairUnder w) [[1], [0]] fun _ => w
    rw [h1]
    congr 1
    funext p
    show m' p = w
    match p with
    | 0 =>
      rw [h2 0 [1] rfl]
      simp [weightedVolumeAt, pairUnder]
    | 1 =>
      rw [h2 1 [0] rfl]
      simp [weightedVolumeAt, pairUnder]
    | p + 2 => exact h3 _ (by simp)
  have hP : Proper (pairUnder w) [[1], [0]] := by
    intro p j hb
    obtain ⟨b, hb, hi, hj⟩ := bond_of_has hb
    rw [hbs] at hb
    simp only [List.mem_cons, List.not_mem_nil, or_false] at hb
    refine ⟨hw, ?_, ?_⟩ <;> intro e <;> rcases hb with rfl | rfl <;> subst hi <;> subst hj <;>
      have := congrFun e 0 <;> simp [pairUnder] at this
  obtain ⟨theta, F, hF⟩ := elastic_defined hP 1 1 fun _ => 0
  obtain ⟨e1, e2⟩ := elastic_at hF
  have ht : ∀ p < 2, theta' (pairUnder w) [[1], [0]] p = 3 := by
    intro p hp
    unfold theta' bondsAt
    rw [hbs]
    have hk : ∀ b, (pairUnder w).zeta b = 1 → (pairUnder w).dY b = 2 →
        3 * kap (pairUnder w) b * (pairUnder w).zeta b * (pairUnder w).ext b / w = 3 := by
      intro b h1 h2
      have : (pairUnder w).ext b = (pairUnder w).dY b - (pairUnder w).zeta b := rfl
      rw [this, h1, h2]
      show 3 * ((1 - 0) * w * 1) * 1 * (2 - 1) / w = 3
      field_simp
      ring
    have : p = 0 ∨ p = 1 := by omega
    rcases this with rfl | rfl
    · have := hk _ z1 z3
      simpa [pairUnder] using this
    · have := hk _ z2 z4
      simpa [pairUnder] using this
  have hY : ∃ yv, yieldValue ⟨1, 1, 1, none⟩ (pairUnder w).horizon = .ok yv ∧ 0 < yv := by
    refine ⟨_, if_neg (by norm_num [pairUnder]), ?_⟩
    have := Real.pi_pos
    simp only [pairUnder]
    positivity
  obtain ⟨yv, hyv, hpos⟩ := hY
  obtain ⟨s', h1, h2⟩ := C219_influence_ignored (pairUnder w) ⟨1, 1, 1, none⟩ [[1], [0]] (fun _ => zero_le_one) rfl w
    (fun _ => 0) (fun _ => 0) (fun _ => 0) theta ⟨0, 0, 0⟩ F (fun p ns t j _ _ => ⟨rfl, .inl rfl, rfl⟩) (fun _ _ => hw) yv hyv hF (by
      intro p ns hp
      refine le_trans (le_of_eq ?_) hpos.le
      have hlt := (List.getElem?_eq_some_iff.1 hp).1
      have hdev : ∀ j t : Nat, ns[t]? = some j → devExtension (pairUnder w) theta p j = 0 := by
        intro j t hj
        unfold devExtension
        rw [e1 p hlt, ht p hlt]
        have hc : (p = 0 ∧ j = 1) ∨ (p = 1 ∧ j = 0) := by
          have : p = 0 ∨ p = 1 := by simp at hlt; omega
          rcases this with rfl | rfl
          · cases hp
            match t with
            | 0 => simp at hj; exact .inl ⟨rfl, hj.symm⟩
          · cases hp
            match t with
            | 0 => simp at hj; exact .inr ⟨rfl, hj.symm⟩
        rcases hc with ⟨rfl, rfl⟩ | ⟨rfl, rfl⟩
        · have a1 : len ((pairUnder w).x 1 - (pairUnder w).x 0) = 1 := z1
          have a2 : len ((pairUnder w).y 1 - (pairUnder w).y 0) = 2 := z3
          rw [a1, a2]
          norm_num
        · have a1 : len ((pairUnder w).x 0 - (pairUnder w).x 1) = 1 := z2
          have a2 : len ((pairUnder w).y 0 - (pairUnder w).y 1) = 2 := z4
          rw [a1, a2]
          norm_num
      unfold yieldMeasure
      rw [div_eq_zero_iff]
      left
      apply List.sum_eq_zero
      intro x hx
      obtain ⟨⟨j, t⟩, hm, rfl⟩ := List.mem_map.1 hx
      have hj := List.mem_zipIdx_iff_getElem?.1 hm
      simp only
      rw [hdev j t hj]
      simp)
  refine ⟨theta, F, s', hW, hF, h1, h2, ?_⟩
  intro h0
  have := congrFun h0 0
  rw [e2 0, hbs] at this
  simp only [List.map_cons, List.map_nil, List.sum_cons, List.sum_nil, pull, tension, ht 0 (by omega), ht 1 (by omega), z1, z2, z3, z4] at this
  simp [selfVol, nbrVol, pairUnder, Config.yd, Config.om, Config.ext, Config.dY, Config.zeta, len] at this
  have e : w * 3 * (3 / w - 15 / w / 3) + w * (15 / w) * (2 - 1) = 9 := by
    field_simp
    norm_num
  rw [e] at this
  norm_num at this

/-- With the influence function two the elastic material is twice as stiff. -/
example : ∃ theta F s', Weighted (pairUnder 2) [[1], [0]] ∧
    elasticMaterial (pairUnder 2) 1 1 2 (encode [[1], [0]]) (fun _ => 0) = .ok (theta, F) ∧
    plasticMaterial (pairUnder 2) ⟨1, 1, 1, none⟩ 2 (encode [[1], [0]]) (fun _ => 0) (fun _ => 0) (fun _ => 0) ⟨0, 0, 0⟩ = .ok (theta, s') ∧
    (∀ k, F k = (2 : ℝ) • s'.F k) ∧ F 0 ≠ 0 := pairUnder_forces 2 (by norm_num)

/-- With the influence function one the two materials agree. -/
example : ∃ theta F s', Weighted (pairUnder 1) [[1], [0]] ∧
    elasticMaterial (pairUnder 1) 1 1 2 (encode [[1], [0]]) (fun _ => 0) = .ok (theta, F) ∧
    plasticMaterial (pairUnder 1) ⟨1, 1, 1, none⟩ 2 (encode [[1], [0]]) (fun _ => 0) (fun _ => 0) (fun _ => 0) ⟨0, 0, 0⟩ = .ok (theta, s') ∧
    s'.F = F ∧ F 0 ≠ 0 := by
  obtain ⟨theta, F, s', h1, h2, h3, h4, h5⟩ := pairUnder_forces 1 one_ne_zero
  exact ⟨theta, F, s', h1, h2, h3, funext fun k => by rw [h4, one_smul], h5⟩

end Verif.Fad
