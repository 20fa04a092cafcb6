import Verif.Post.ErrorLemmas
import Mathlib.Tactic.NormNum

/-!
# Properties: the error of the displacement
-/

noncomputable section

namespace Verif.Post

open Verif Verif.Mech
open scoped Classical

theorem third (a b c : ℝ) : (![a, b, c] : V3) 2 = c := rfl

theorem computeError1_eq (u : V3) {x1 x2 y1 y2 z1 z2 : ℝ} (h1 : |y2 - y1 - (x2 - x1)| ≤ 10 ^ 12)
    (h2 : |z2 - z1 - (x2 - x1)| ≤ 10 ^ 12) : computeError1 u x1 x2 y1 y2 z1 z2 =
      .ok (((u 0 * u 0 + u 1 * u 1 + u 2 * u 2) * (x2 - x1) - 2 / 3 * u 0 * (x2 ^ 3 - x1 ^ 3) +
        1 / 5 * (x2 ^ 5 - x1 ^ 5)) * (x2 - x1) ^ 2) := by
  unfold computeError1
  simp only
  rw [if_neg (not_lt.mpr h1), if_neg (not_lt.mpr h2)]
  congr 1
  ring

theorem box_rectangular {ns : List V3} {a b : V3} (h : IsBox ns a b) (hs : ∀ c, 1 / 10 ^ 10 ≤ b c - a c) :
    isRectangular ns = true := by
  unfold isRectangular
  rw [(box_limits h 0).1, (box_limits h 0).2, (box_limits h 1).1, (box_limits h 1).2, (box_limits h 2).1,
    (box_limits h 2).2]
  exact decide_eq_true ⟨((box_count h 0).1 (hs 0)).1, ((box_count h 0).1 (hs 0)).2, ((box_count h 1).1 (hs 1)).1,
    ((box_count h 1).1 (hs 1)).2, ((box_count h 2).1 (hs 2)).1, ((box_count h 2).1 (hs 2)).2⟩

theorem errorAt_box {e : Element} {a b : V3} (h : IsBox e.nodes a b) (hs : ∀ c, 1 / 10 ^ 10 ≤ b c - a c) :
    errorAt e = computeError1 (e.y - e.x) (a 0) (b 0) (a 1) (b 1) (a 2) (b 2) := by
  rw [errorAt, if_neg (by rw [box_rectangular h hs]; simp), (box_limits h 0).1, (box_limits h 0).2, (box_limits h 1).1,
    (box_limits h 1).2, (box_limits h 2).1, (box_limits h 2).2]

/-- The corners of the unit cube as an element that has been displaced. -/
def unitElement : Element := ⟨0, ![1, 2, 3], corners 0 1⟩

theorem one_le_max : (10 : ℝ) ≤ dblMax := by
  have : (1 : ℝ) ≤ 2 ^ 971 := one_le_pow₀ (by norm_num)
  have h2 : (10 : ℝ) ≤ 2 ^ 53 - 1 := by norm_num
  calc (10 : ℝ) = 10 * 1 := (mul_one _).symm
    _ ≤ (2 ^ 53 - 1) * 2 ^ 971 := mul_le_mul h2 this zero_le_one (by linarith)

theorem box_of {a b : V3} (h1 : ∀ c, 0 ≤ a c) (h2 : ∀ c, a c ≤ b c) (h3 : ∀ c, b c ≤ 10) : IsBox (corners a b) a b := by
  refine ⟨List.Perm.refl _, fun c => ⟨h2 c, ?_, ?_⟩⟩
  · rw [abs_of_nonneg (h1 c)]; exact ((h2 c).trans (h3 c)).trans one_le_max
  · rw [abs_of_nonneg ((h1 c).trans (h2 c))]; exact (h3 c).trans one_le_max

theorem unit_box : IsBox unitElement.nodes 0 1 :=
  box_of (fun _ => le_refl _) (fun _ => zero_le_one) fun _ => by simp

/-- **C180 (part).** For an element whose nodes are the corners of a cube with a side of at least `1e-10` the error is the
squared difference between the displacement of the point and the displacement `(s², 0, 0)`, integrated over the cube.  The
claim for all rectangular elements, which are accepted too, is false: see `C180_not_cube`. -/
theorem C180_partial (e : Element) (a : V3) (h : ℝ) (hb : IsBox e.nodes a (fun c => a c + h)) (hh : 1 / 10 ^ 10 ≤ h) :
    errorAt e = .ok (errorIntegral (e.y - e.x) a fun c => a c + h) := by
  rw [errorAt_box hb fun c => by simpa using hh, computeError1_eq _ (by simp) (by simp), errorIntegral_eq]
  congr 1
  ring

example : errorAt unitElement = .ok (errorIntegral (unitElement.y - unitElement.x) 0 fun _ => 0 + 1) :=
  by
  have h : (fun _ => 0 + 1 : V3) = 1 := by funext c; simp
  exact C180_partial unitElement 0 1 (by show IsBox _ 0 (fun _ => 0 + 1); rw [h]; exact unit_box) (by norm_num)

/-- **C180 (rectangular elements).** An element whose nodes are the corners of a box is accepted, unless its sides differ by
more than `1e12`, and the error is in proportion to the integral as the square of the first side to the product of the other
two. -/
theorem C180_scaled (e : Element) (a b : V3) (hb : IsBox e.nodes a b) (hs : ∀ c, 1 / 10 ^ 10 ≤ b c - a c)
    (h1 : |b 1 - a 1 - (b 0 - a 0)| ≤ 10 ^ 12) (h2 : |b 2 - a 2 - (b 0 - a 0)| ≤ 10 ^ 12) :
    ∃ v, errorAt e = .ok v ∧ v * ((b 1 - a 1) * (b 2 - a 2)) = (b 0 - a 0) ^ 2 * errorIntegral (e.y - e.x) a b ∧
      0 ≤ v := by
  have e1 := errorAt_box hb hs
  rw [computeError1_eq _ h1 h2] at e1
  have e2 : ∀ c, 0 < b c - a c := fun c => lt_of_lt_of_le (by positivity) (hs c)
  have e3 := errorIntegral_eq (e.y - e.x) a b
  refine ⟨_, e1, ?_, ?_⟩
  · rw [e3]; ring
  · have e4 := errorIntegral_nonneg (e.y - e.x) a b fun c => (hb.2 c).1
    rw [e3] at e4
    exact mul_nonneg (nonneg_of_mul_nonneg_left e4 (mul_pos (e2 1) (e2 2))) (sq_nonneg _)

example : ∃ v, errorAt unitElement = .ok v ∧ 0 ≤ v := by
  obtain ⟨v, h, _, h'⟩ := C180_scaled unitElement 0 1 unit_box (fun c => by simp; norm_num) (by simp) (by simp)
  exact ⟨v, h, h'⟩

/-- **C180 (not a cube).** A box that is twice as long in the second direction is accepted, and the error is half of the
integral. -/
theorem C180_not_cube : ∃ (e : Element) (a b : V3) (v : ℝ), IsBox e.nodes a b ∧ errorAt e = .ok v ∧
    0 < v ∧ errorIntegral (e.y - e.x) a b = 2 * v := by
  have hb : IsBox (corners 0 ![1, 2, 1]) 0 ![1, 2, 1] := by
    refine box_of (fun _ => le_refl _) (fun c => ?_) fun c => ?_ <;> fin_cases c <;> norm_num
  have hs : ∀ c : Fin 3, (1 / 10 ^ 10 : ℝ) ≤ (![1, 2, 1] : V3) c - (0 : V3) c := by
    intro c; fin_cases c <;> norm_num
  have e1 := errorAt_box (e := ⟨0, 0, corners 0 ![1, 2, 1]⟩) hb hs
  rw [computeError1_eq _ (by norm_num [third]) (by norm_num [third])] at e1
  refine ⟨⟨0, 0, corners 0 ![1, 2, 1]⟩, 0, ![1, 2, 1], _, hb, e1, ?_, ?_⟩
  · norm_num [third]
  · rw [errorIntegral_eq]
    norm_num [third]

/-- **C180 (thin elements).** A box with a side of less than `1e-10` ends the program. -/
theorem C180_thin (e : Element) (a b : V3) (hb : IsBox e.nodes a b) (c : Fin 3) (hc : b c - a c < 1 / 10 ^ 10) :
    errorAt e = .fail .terminate := by
  rw [errorAt, if_pos]
  unfold isRectangular
  rw [(box_limits hb 0).1, (box_limits hb 0).2, (box_limits hb 1).1, (box_limits hb 1).2, (box_limits hb 2).1,
    (box_limits hb 2).2]
  refine decide_eq_false fun ⟨k1, _, k2, _, k3, _⟩ => ?_
  have := (box_count hb c).2 hc
  fin_cases c
  · exact absurd (this.symm.trans k1) (by norm_num)
  · exact absurd (this.symm.trans k2) (by norm_num)
  · exact absurd (this.symm.trans k3) (by norm_num)

example : errorAt ⟨0, 0, corners 0 ![1, 1, 1 / 10 ^ 11]⟩ = .fail .terminate := by
  refine C180_thin _ 0 ![1, 1, 1 / 10 ^ 11] (box_of (fun _ => le_refl _) (fun c => ?_) fun c => ?_) 2 ?_
  · fin_cases c <;> norm_num
  · fin_cases c <;> norm_num
  · norm_num [third]

/-- Four corners of the unit cube, no two of them on one edge, each twice. -/
def twice : List V3 :=
  [![0, 0, 0], ![1, 1, 0], ![1, 0, 1], ![0, 1, 1], ![0, 0, 0], ![1, 1, 0], ![1, 0, 1], ![0, 1, 1]]

theorem twice_limits (c : Fin 3) : lower c twice = 0 ∧ upper c twice = 1 := by
  have hm := one_le_max
  refine ⟨lower_eq ?_ ⟨![0, 0, 0], by simp [twice], by fin_cases c <;> rfl⟩ (by linarith),
    upper_eq ?_ ?_ (by linarith)⟩
  · intro n hn
    simp only [twice, List.mem_cons, List.not_mem_nil, or_false] at hn
    rcases hn with rfl | rfl | rfl | rfl | rfl | rfl | rfl | rfl <;> fin_cases c <;> norm_num
  · intro n hn
    simp only [twice, List.mem_cons, List.not_mem_nil, or_false] at hn
    rcases hn with rfl | rfl | rfl | rfl | rfl | rfl | rfl | rfl <;> fin_cases c <;> norm_num
  · fin_cases c
    · exact ⟨![1, 1, 0], by simp [twice], rfl⟩
    · exact ⟨![1, 1, 0], by simp [twice], rfl⟩
    · exact ⟨![0, 1, 1], by simp [twice], rfl⟩

/-- **C180 (not a box).** The check accepts nodes that are not the corners of a box. -/
theorem C180_not_box : ∃ e : Element, (∃ v, errorAt e = .ok v) ∧ ∀ a b, ¬ IsBox e.nodes a b := by
  refine ⟨⟨0, 0, twice⟩, ?_, fun a b h => ?_⟩
  · have hr : isRectangular twice = true := by
      unfold isRectangular
      rw [(twice_limits 0).1, (twice_limits 0).2, (twice_limits 1).1, (twice_limits 1).2, (twice_limits 2).1,
        (twice_limits 2).2]
      refine decide_eq_true ?_
      simp only [numAt, twice, List.foldl_cons, List.foldl_nil]
      norm_num [third]
    show ∃ v, errorAt ⟨0, 0, twice⟩ = .ok v
    rw [errorAt, if_neg (by simp [hr])]
    simp only [(twice_limits 0).1, (twice_limits 0).2, (twice_limits 1).1, (twice_limits 1).2, (twice_limits 2).1,
        (twice_limits 2).2]
    exact ⟨_, computeError1_eq _ (by norm_num) (by norm_num)⟩
  · have ea : a = 0 := funext fun c => ((box_limits h c).1).symm.trans (twice_limits c).1
    have eb : b = 1 := funext fun c => ((box_limits h c).2).symm.trans (twice_limits c).2
    subst ea eb
    have : (![1, 0, 0] : V3) ∈ twice := by
      refine h.1.mem_iff.mpr ?_
      simp [corners]
    simp only [twice, List.mem_cons, List.not_mem_nil, or_false] at this
    rcases this with e | e | e | e | e | e | e | e
    all_goals
      have e0 := congrFun e 0
      have e1 := congrFun e 1
      have e2 := congrFun e 2
      rw [third, third] at e2
      first | (norm_num at e0; done) | (norm_num at e1; done) | norm_num at e2

theorem exodusNodes_eq {ps : List V3} (h : ps.length ≤ 8) :
    exodusNodes ps = ps ++ List.replicate (8 - ps.length) 0 := by
  apply List.ext_getElem
  · simp [exodusNodes]; omega
  · intro i h1 h2
    simp only [exodusNodes, List.getElem_map, List.getElem_range]
    by_cases hi : i < ps.length
    · rw [if_pos hi, List.getElem_append_left hi]
      simp [List.getD_eq_getElem?_getD, hi]
    · rw [if_neg hi, List.getElem_append_right (not_lt.mp hi)]
      simp

theorem numAt_nodes {ps : List V3} (h : ps.length ≤ 8) (c : Fin 3) (v : ℝ) : numAt c (exodusNodes ps) v =
    ps.countP (fun n => decide (|n c - v| < 1 / 10 ^ 10)) + if |0 - v| < 1 / 10 ^ 10 then 8 - ps.length else 0 := by
  rw [numAt_eq, exodusNodes_eq h, List.countP_append, List.countP_replicate]
  by_cases hv : |0 - v| < 1 / 10 ^ 10
  · rw [if_pos (by simpa using hv), if_pos hv]
  · rw [if_neg (by simpa using hv), if_neg hv]

theorem rect_counts {ns : List V3} (h : isRectangular ns = true) (c : Fin 3) :
    numAt c ns (lower c ns) = 4 ∧ numAt c ns (upper c ns) = 4 := by
  obtain ⟨h1, h2, h3, h4, h5, h6⟩ := of_decide_eq_true h
  fin_cases c
  · exact ⟨h1, h2⟩
  · exact ⟨h3, h4⟩
  · exact ⟨h5, h6⟩

/-- **C180 (other elements).** Points that do not come from an Exodus mesh, and elements with fewer than four nodes, end the
program; so do elements with four nodes, two of which are at least `2e-10` apart in some direction. -/
theorem C180_other (x y : V3) (ps : List V3) (h : ps.length < 4 ∨ (ps.length = 4 ∧ ∃ p ∈ ps, ∃ q ∈ ps, ∃ c : Fin 3,
    2 / 10 ^ 10 ≤ |p c - q c|)) : errorAt ⟨x, y, exodusNodes ps⟩ = .fail .terminate := by
  rw [errorAt, if_pos]
  rw [← Bool.not_eq_true]
  intro hr
  rcases h with h | ⟨h, p, hp, q, hq, c, hpq⟩
  · have e := (rect_counts hr 0).1
    show False
    simp only at e
    rw [numAt_nodes (by omega)] at e
    have := List.countP_le_length (p := fun n : V3 => decide (|n 0 - lower 0 (exodusNodes ps)| < 1 / 10 ^ 10)) (l := ps)
    split at e <;> omega
  · have e1 := (rect_counts hr c).1
    have e2 := (rect_counts hr c).2
    simp only at e1 e2
    have close : ∀ v : ℝ, ps.countP (fun n => decide (|n c - v| < 1 / 10 ^ 10)) = 4 → False := by
      intro v hv
      rw [← h, List.countP_eq_length] at hv
      have hp' := of_decide_eq_true (hv p hp)
      have hq' := of_decide_eq_true (hv q hq)
      rw [abs_lt] at hp' hq'
      rcases abs_cases (p c - q c) with ⟨e, _⟩ | ⟨e, _⟩ <;> rw [e] at hpq <;> linarith [hp'.1, hp'.2, hq'.1, hq'.2]
    rw [numAt_nodes (by omega)] at e1 e2
    split at e1
    · split at e2
      · rename_i z1 z2
        have hmem : ∀ n ∈ ps, n ∈ exodusNodes ps := fun n hn => by
          rw [exodusNodes_eq (by omega)]; exact List.mem_append_left _ hn
        have l := (lower_fold c (exodusNodes ps) dblMax).2.1
        have u := (upper_fold c (exodusNodes ps) (-dblMax)).2.1
        have l1 : lower c (exodusNodes ps) ≤ p c := l p (hmem p hp)
        have l2 : lower c (exodusNodes ps) ≤ q c := l q (hmem q hq)
        have u1 : p c ≤ upper c (exodusNodes ps) := u p (hmem p hp)
        have u2 : q c ≤ upper c (exodusNodes ps) := u q (hmem q hq)
        rw [abs_lt] at z1 z2
        rcases abs_cases (p c - q c) with ⟨e, _⟩ | ⟨e, _⟩ <;> rw [e] at hpq <;>
          linarith [z1.1, z1.2, z2.1, z2.2]
      · exact close _ (by omega)
    · exact close _ (by omega)

example : errorAt ⟨0, 0, exodusNodes []⟩ = .fail .terminate := C180_other 0 0 [] (Or.inl (by simp))

example : errorAt ⟨0, 0, exodusNodes [0, ![1, 0, 0], ![0, 1, 0], ![0, 0, 1]]⟩ = .fail .terminate :=
  C180_other 0 0 _ (Or.inr ⟨rfl, 0, by simp, ![1, 0, 0], by simp, 0, by norm_num⟩)

/-! ### The sum -/

theorem errorPoints_ok {g : ℝ} {es : List Element} {r : ℝ × List ℝ} (h : errorPoints g es = .ok r) :
    r.1 = g + r.2.sum ∧ List.Forall₂ (fun e v => errorAt e = .ok v) es r.2 := by
  induction es generalizing g r with
  | nil => cases h; simp
  | cons e es ih =>
    obtain ⟨v, h1, h⟩ := Outcome.bind_eq_ok.mp h
    obtain ⟨s, h2, h⟩ := Outcome.bind_eq_ok.mp h
    cases h
    obtain ⟨i1, i2⟩ := ih h2
    refine ⟨?_, List.Forall₂.cons h1 i2⟩
    show s.1 = g + (v :: s.2).sum
    rw [i1, List.sum_cons]; ring

theorem errorBlocks_ok {g : ℝ} {bs : List (List Element)} {r : ℝ × List (List ℝ)} (h : errorBlocks g bs = .ok r) :
    r.1 = g + (r.2.map List.sum).sum ∧ List.Forall₂ (List.Forall₂ fun e v => errorAt e = .ok v) bs r.2 := by
  induction bs generalizing g r with
  | nil => cases h; simp
  | cons b bs ih =>
    obtain ⟨p, h1, h⟩ := Outcome.bind_eq_ok.mp h
    obtain ⟨s, h2, h⟩ := Outcome.bind_eq_ok.mp h
    cases h
    obtain ⟨i1, i2⟩ := ih h2
    obtain ⟨j1, j2⟩ := errorPoints_ok h1
    refine ⟨?_, List.Forall₂.cons j2 i2⟩
    show s.1 = g + ((p.2 :: s.2).map List.sum).sum
    rw [i1, j1, List.map_cons, List.sum_cons]; ring

theorem errorRanks_ok {rs : List (List (List Element))} {r : List (ℝ × List (List ℝ))} (h : errorRanks rs = .ok r) :
    (r.map Prod.fst).sum = ((r.map Prod.snd).flatten.flatten).sum ∧
    List.Forall₂ (List.Forall₂ (List.Forall₂ fun e v => errorAt e = .ok v)) rs (r.map Prod.snd) := by
  induction rs generalizing r with
  | nil => cases h; simp
  | cons b bs ih =>
    obtain ⟨p, h1, h⟩ := Outcome.bind_eq_ok.mp h
    obtain ⟨s, h2, h⟩ := Outcome.bind_eq_ok.mp h
    cases h
    obtain ⟨i1, i2⟩ := ih h2
    obtain ⟨j1, j2⟩ := errorBlocks_ok h1
    refine ⟨?_, List.Forall₂.cons j2 i2⟩
    rw [List.map_cons, List.sum_cons, List.map_cons, List.flatten_cons, List.flatten_append, List.sum_append, i1, j1,
      List.sum_flatten (l := p.2), zero_add]

/-- **C181.** If the computation succeeds, each point has the error of its element, and `Global_Error` is the sum of the
errors of all points of all blocks on all processors. -/
theorem C181_sum (ranks : List (List (List Element))) (errs : List (List (List ℝ))) (g : ℝ)
    (h : computeError ranks = .ok (errs, g)) :
    List.Forall₂ (List.Forall₂ (List.Forall₂ fun e v => errorAt e = .ok v)) ranks errs ∧
    g = errs.flatten.flatten.sum := by
  obtain ⟨r, h1, h⟩ := Outcome.bind_eq_ok.mp h
  split at h
  · cases h
  · cases h
    obtain ⟨i1, i2⟩ := errorRanks_ok h1
    exact ⟨i2, i1⟩

theorem errorPoints_defined {g : ℝ} {es : List Element} (h : ∀ e ∈ es, ∃ v, errorAt e = .ok v) :
    ∃ r, errorPoints g es = .ok r := by
  induction es generalizing g with
  | nil => exact ⟨_, rfl⟩
  | cons e es ih =>
    obtain ⟨v, h1⟩ := h e List.mem_cons_self
    obtain ⟨r, h2⟩ := ih (g := g + v) fun e he => h e (List.mem_cons_of_mem _ he)
    exact ⟨_, by rw [errorPoints, h1, Outcome.ok_bind, h2, Outcome.ok_bind]⟩

theorem errorBlocks_defined {g : ℝ} {bs : List (List Element)} (h : ∀ b ∈ bs, ∀ e ∈ b, ∃ v, errorAt e = .ok v) :
    ∃ r, errorBlocks g bs = .ok r := by
  induction bs generalizing g with
  | nil => exact ⟨_, rfl⟩
  | cons b bs ih =>
    obtain ⟨v, h1⟩ := errorPoints_defined (g := g) (h b List.mem_cons_self)
    obtain ⟨r, h2⟩ := ih (g := v.1) fun e he => h e (List.mem_cons_of_mem _ he)
    exact ⟨_, by rw [errorBlocks, h1, Outcome.ok_bind, h2, Outcome.ok_bind]⟩

/-- **C181 (defined).** If every processor has a block and every element is accepted, the computation succeeds. -/
theorem C181_defined (ranks : List (List (List Element))) (hne : [] ∉ ranks)
    (h : ∀ r ∈ ranks, ∀ b ∈ r, ∀ e ∈ b, ∃ v, errorAt e = .ok v) : ∃ errs g, computeError ranks = .ok (errs, g) := by
  have : ∃ r, errorRanks ranks = .ok r := by
    clear hne
    induction ranks with
    | nil => exact ⟨_, rfl⟩
    | cons b bs ih =>
      obtain ⟨v, h1⟩ := errorBlocks_defined (g := 0) (h b List.mem_cons_self)
      obtain ⟨r, h2⟩ := ih fun e he => h e (List.mem_cons_of_mem _ he)
      exact ⟨_, by rw [errorRanks, h1, Outcome.ok_bind, h2, Outcome.ok_bind]⟩
  obtain ⟨r, hr⟩ := this
  exact ⟨_, _, by rw [computeError, hr, Outcome.ok_bind, if_neg hne]⟩

example : ∃ errs g, computeError [[[unitElement], []], [[], [unitElement, unitElement]]] = .ok (errs, g) := by
  refine C181_defined _ (by simp) fun r hr b hb e he => ?_
  have : e = unitElement := by
    simp only [List.mem_cons, List.not_mem_nil, or_false] at hr
    rcases hr with rfl | rfl <;> simp only [List.mem_cons, List.not_mem_nil, or_false] at hb <;>
      rcases hb with rfl | rfl <;> simp at he <;> exact he
  subst this
  obtain ⟨v, h, _⟩ := C180_scaled unitElement 0 1 unit_box (fun c => by simp; norm_num) (by simp) (by simp)
  exact ⟨v, h⟩

/-- **C181 (refused elements).** If some element anywhere is refused, there is no result. -/
theorem C181_refused (ranks : List (List (List Element))) (r : List (List Element)) (hr : r ∈ ranks) (b : List Element)
    (hb : b ∈ r) (e : Element) (he : e ∈ b) (h : errorAt e = .fail .terminate) (errs : List (List (List ℝ))) (g : ℝ) :
    computeError ranks ≠ .ok (errs, g) := by
  intro hc
  obtain ⟨h1, _⟩ := C181_sum ranks errs g hc
  have find : ∀ {α β : Type} {R : α → β → Prop} {l : List α} {m : List β}, List.Forall₂ R l m → ∀ a ∈ l, ∃ c, R a c := by
    intro α β R l m h
    induction h with
    | nil => intro a ha; cases ha
    | cons h1 h2 ih =>
      intro a ha
      rcases List.mem_cons.mp ha with rfl | ha
      · exact ⟨_, h1⟩
      · exact ih a ha
  obtain ⟨r', h2⟩ := find h1 r hr
  obtain ⟨b', h3⟩ := find h2 b hb
  obtain ⟨v, h4⟩ := find h3 e he
  rw [h] at h4
  cases h4

example : ∀ errs g, computeError [[[unitElement]], [[⟨0, 0, exodusNodes []⟩]]] ≠ .ok (errs, g) :=
  C181_refused _ _ (List.mem_cons_of_mem _ List.mem_cons_self) _ List.mem_cons_self _ List.mem_cons_self
    (C180_other 0 0 [] (Or.inl (by simp)))

end Verif.Post
