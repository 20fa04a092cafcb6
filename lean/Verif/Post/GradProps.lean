import Verif.Post.Spec
import Verif.Correspondence.Defined

/-!
# Properties: the deformation gradient that is written out
-/

noncomputable section

namespace Verif.Post

open Verif Verif.Neigh Verif.Mech Verif.Tensor Verif.Correspondence Matrix
open scoped Classical

theorem gradBlock_has {b : GradBlock} {nbs : List (List Nat)} (h : b.Has nbs) :
    gradBlock b = .ok (decide ((shapeAndGradient b.body b.y nbs.length (bondsOf nbs) b.inv b.grad).code ≠ 0),
      { b with
        inv := (shapeAndGradient b.body b.y nbs.length (bondsOf nbs) b.inv b.grad).inv
        grad := (shapeAndGradient b.body b.y nbs.length (bondsOf nbs) b.inv b.grad).grad }) := by
  rw [gradBlock, h.1, h.2, visited_encode]
  rfl

theorem code_iff (b : GradBlock) (nbs : List (List Nat)) :
    (shapeAndGradient b.body b.y nbs.length (bondsOf nbs) b.inv b.grad).code = 0 ↔
      ∀ p ns, nbs[p]? = some ns → (shapeOf b.body p ns).det ≠ 0 := by
  unfold shapeAndGradient
  rw [shape_code]
  constructor
  · intro h p ns hp
    obtain ⟨hlt, _⟩ := List.getElem?_eq_some_iff.1 hp
    have := h.2 p (List.mem_range.mpr hlt)
    rwa [determinant_eq, shapeTensor_point b.body nbs hp] at this
  · intro h
    refine ⟨rfl, fun p hp => ?_⟩
    have hlt := List.mem_range.mp hp
    have hp' : nbs[p]? = some nbs[p] := List.getElem?_eq_getElem hlt
    rw [determinant_eq, shapeTensor_point b.body nbs hp']
    exact h p _ hp'

theorem has_unique {b : GradBlock} {n1 n2 : List (List Nat)} (h1 : b.Has n1) (h2 : b.Has n2) :
    bondsOf n1 = bondsOf n2 := by
  have e1 := visited_encode n1
  have e2 := visited_encode n2
  rw [← h1.1, ← h1.2] at e1
  rw [← h2.1, ← h2.2] at e2
  rw [e1] at e2
  exact Outcome.ok.inj e2

theorem gradLoop_true (bs : List GradBlock) : gradLoop true bs = .ok (true, bs) := by
  induction bs with
  | nil => rfl
  | cons b bs ih =>
    rw [gradLoop, if_pos rfl]
    simp only [Outcome.ok_bind, ih]

/-- What the loop makes of a block with a regular code. -/
theorem gradLoop_regular {b : GradBlock} (h : b.Regular) (bs : List GradBlock) :
    ∃ q, gradBlock b = .ok (false, q) ∧ gradLoop false (b :: bs) = (do
      let rest ← gradLoop false bs
      .ok (rest.1, q :: rest.2)) := by
  obtain ⟨nbs, h1, h2⟩ := h
  have e := gradBlock_has h1
  rw [decide_eq_false (not_not.mpr ((code_iff b nbs).mpr h2))] at e
  refine ⟨_, e, ?_⟩
  rw [gradLoop, if_neg (by simp), e]
  simp only [Outcome.ok_bind]

theorem gradLoop_singular {b : GradBlock} (h : b.Singular) (bs : List GradBlock) :
    ∃ q, gradBlock b = .ok (true, q) ∧ gradLoop false (b :: bs) = .ok (true, q :: bs) := by
  obtain ⟨nbs, h1, p, ns, hp, hd⟩ := h
  have e := gradBlock_has h1
  have hne : (shapeAndGradient b.body b.y nbs.length (bondsOf nbs) b.inv b.grad).code ≠ 0 :=
    fun hc => (code_iff b nbs).mp hc p ns hp hd
  rw [decide_eq_true hne] at e
  refine ⟨_, e, ?_⟩
  rw [gradLoop, if_neg (by simp), e]
  simp only [Outcome.ok_bind, gradLoop_true]

/-- Regular blocks in front are all computed. -/
theorem gradLoop_append (pre bs : List GradBlock) (h : ∀ b ∈ pre, b.Regular) :
    ∃ qs, pre.map gradBlock = qs.map (fun q => .ok (false, q)) ∧ gradLoop false (pre ++ bs) = (do
      let rest ← gradLoop false bs
      .ok (rest.1, qs ++ rest.2)) := by
  induction pre with
  | nil =>
    refine ⟨[], rfl, ?_⟩
    rw [List.nil_append]
    cases gradLoop false bs <;> rfl
  | cons b pre ih =>
    obtain ⟨qs, e1, e2⟩ := ih fun b hb => h b (List.mem_cons_of_mem _ hb)
    obtain ⟨q, e3, e4⟩ := gradLoop_regular (h b List.mem_cons_self) (pre ++ bs)
    refine ⟨q :: qs, by rw [List.map_cons, List.map_cons, e1, e3], ?_⟩
    rw [List.cons_append, e4, e2]
    cases gradLoop false bs <;> rfl

theorem grad_affine {b : GradBlock} {nbs : List (List Nat)} (h : b.Has nbs) {p : Nat} {ns : List Nat}
    (hp : nbs[p]? = some ns) (hd : (shapeOf b.body p ns).det ≠ 0) {A : Mat} (hA : MovedBy b.body b.y p ns A)
    {c : Bool} {q : GradBlock} (hq : gradBlock b = .ok (c, q)) : (q.grad p).toMatrix = A := by
  rw [gradBlock_has h] at hq
  cases hq
  obtain ⟨hlt, _⟩ := List.getElem?_eq_some_iff.1 hp
  have e0 := ((shape_fold b.body b.y (bondsOf nbs) (List.range nbs.length) ⟨0, b.inv, b.grad⟩ p).1
    (List.mem_range.mpr hlt)).2
  have hdet : determinant (shapeTensor b.body (bondsAt (bondsOf nbs) p)) ≠ 0 := by
    rwa [determinant_eq, shapeTensor_point b.body nbs hp]
  have e := firstTerm_map b.body b.y b.body.x (bondsAt (bondsOf nbs) p) A fun e he => by
    obtain ⟨e1, e2⟩ := bondsAt_range hp he
    rw [e1]; exact hA e.j e2
  rw [firstTerm_reference] at e
  show ((shapeAndGradient b.body b.y nbs.length (bondsOf nbs) b.inv b.grad).grad p).toMatrix = A
  unfold shapeAndGradient
  rw [e0, matrixMultiply_eq]
  simp only [Bool.false_eq_true, if_false, one_smul]
  rw [e, Matrix.mul_assoc, product_invert3 hdet, Matrix.mul_one]

theorem grad_zero {b : GradBlock} {nbs : List (List Nat)} (h : b.Has nbs) {p : Nat} {ns : List Nat}
    (hp : nbs[p]? = some ns) (hd : (shapeOf b.body p ns).det = 0)
    {c : Bool} {q : GradBlock} (hq : gradBlock b = .ok (c, q)) : (q.grad p).toMatrix = 0 := by
  rw [gradBlock_has h] at hq
  cases hq
  obtain ⟨hlt, _⟩ := List.getElem?_eq_some_iff.1 hp
  have e0 := ((shape_fold b.body b.y (bondsOf nbs) (List.range nbs.length) ⟨0, b.inv, b.grad⟩ p).1
    (List.mem_range.mpr hlt)).2
  have hdet : determinant (shapeTensor b.body (bondsAt (bondsOf nbs) p)) = 0 := by
    rwa [determinant_eq, shapeTensor_point b.body nbs hp]
  show ((shapeAndGradient b.body b.y nbs.length (bondsOf nbs) b.inv b.grad).grad p).toMatrix = 0
  unfold shapeAndGradient
  rw [e0, matrixMultiply_eq, invert3_singular hdet]
  simp [toMatrix_zero]

theorem skipped (rank : Nat) (pre post : List GradBlock) (b : GradBlock) (hpre : ∀ b ∈ pre, b.Regular)
    (hb : b.Singular) : ∃ r, computeGradient rank (pre ++ b :: post) = .ok r ∧ r.code = true ∧
      r.blocks.drop (pre.length + 1) = post := by
  obtain ⟨qs, e1, e2⟩ := gradLoop_append pre (b :: post) hpre
  have hlen : pre.length = qs.length := by simpa using congrArg List.length e1
  obtain ⟨q, e3, e4⟩ := gradLoop_singular hb post
  refine ⟨⟨true, decide (rank = 0), qs ++ q :: post⟩, ?_, rfl, ?_⟩
  · rw [computeGradient, e2, e4]
    simp
  · show (qs ++ q :: post).drop (pre.length + 1) = post
    rw [hlen]
    simp

/-! ### Two blocks -/

/-- A point with three neighbors along the axes, stretched by the factor two. -/
def goodBlock : GradBlock := ⟨cornerBody, stretched 2, 1, encode cornerList, fun _ => zero, fun _ => zero⟩

/-- A point without neighbors. -/
def lonely : GradBlock := ⟨cornerBody, stretched 2, 1, encode [[]], fun _ => zero, fun _ => zero⟩

theorem good_has : goodBlock.Has cornerList := ⟨rfl, rfl⟩

theorem good_det : (shapeOf goodBlock.body 0 [1, 2, 3]).det ≠ 0 := by
  show (shapeOf cornerBody 0 [1, 2, 3]).det ≠ 0
  rw [← shapeTensor_point cornerBody cornerList (p := 0) rfl, corner_shape, toMatrix_identity]
  simp

theorem good_regular : goodBlock.Regular := by
  refine ⟨cornerList, good_has, fun p ns h => ?_⟩
  obtain ⟨rfl, rfl⟩ := corner_get h
  exact good_det

theorem good_moved : MovedBy goodBlock.body goodBlock.y 0 [1, 2, 3] ((2 : ℝ) • 1) := by
  intro j _
  rw [smul_mulVec, one_mulVec]
  show (2 : ℝ) • cornerBody.x j - (2 : ℝ) • cornerBody.x 0 = _
  rw [smul_sub]
  rfl

theorem lonely_singular : lonely.Singular := ⟨[[]], ⟨rfl, rfl⟩, 0, [], rfl, by simp [shapeOf]⟩

/-- **C179 (part).** At a point with an invertible shape tensor whose neighbors have moved according to `A`, the deformation
gradient is `A` after the computation, if the points of all earlier blocks have invertible shape tensors.  The full claim,
without this condition on other blocks, is false: see `C179_skipped`. -/
theorem C179_partial (rank : Nat) (pre post : List GradBlock) (b : GradBlock) (hpre : ∀ b ∈ pre, b.Regular)
    (r : GradResult) (h : computeGradient rank (pre ++ b :: post) = .ok r) (nbs : List (List Nat)) (hb : b.Has nbs)
    (p : Nat) (ns : List Nat) (hp : nbs[p]? = some ns) (hd : (shapeOf b.body p ns).det ≠ 0) (A : Mat)
    (hA : MovedBy b.body b.y p ns A) :
    ∃ q, r.blocks[pre.length]? = some q ∧ q.body = b.body ∧ q.y = b.y ∧ (q.grad p).toMatrix = A := by
  obtain ⟨qs, e1, e2⟩ := gradLoop_append pre (b :: post) hpre
  have hlen : pre.length = qs.length := by simpa using congrArg List.length e1
  rw [computeGradient, e2] at h
  obtain ⟨⟨c, l⟩, h1, h2⟩ := Outcome.bind_eq_ok.mp h
  cases h2
  obtain ⟨⟨c', l'⟩, h3, h4⟩ := Outcome.bind_eq_ok.mp h1
  cases h4
  rw [gradLoop, if_neg (by simp)] at h3
  obtain ⟨⟨c2, q⟩, h5, h6⟩ := Outcome.bind_eq_ok.mp h3
  obtain ⟨⟨c3, l3⟩, h7, h8⟩ := Outcome.bind_eq_ok.mp h6
  cases h8
  refine ⟨q, by simp [hlen], ?_, ?_, grad_affine hb hp hd hA h5⟩
  · rw [gradBlock_has hb] at h5; cases h5; rfl
  · rw [gradBlock_has hb] at h5; cases h5; rfl

example : ∃ r q, computeGradient 0 ([goodBlock] ++ goodBlock :: [lonely]) = .ok r ∧ r.blocks[1]? = some q ∧
    (q.grad 0).toMatrix = (2 : ℝ) • 1 := by
  obtain ⟨r, h, _⟩ := skipped 0 [goodBlock, goodBlock] [] lonely
    (by simp [good_regular]) lonely_singular
  obtain ⟨q, h1, _, _, h2⟩ := C179_partial 0 [goodBlock] [lonely] goodBlock (by simp [good_regular]) r h cornerList
    good_has 0 [1, 2, 3] rfl good_det _ good_moved
  exact ⟨r, q, h, h1, h2⟩

/-- **C179 (blocks are skipped).** After the first block with a point whose shape tensor is singular no other block is
computed: their deformation gradients are what they were. -/
theorem C179_skipped (rank : Nat) (pre post : List GradBlock) (b : GradBlock) (hpre : ∀ b ∈ pre, b.Regular)
    (hb : b.Singular) : ∃ r, computeGradient rank (pre ++ b :: post) = .ok r ∧ r.code = true ∧
      r.blocks.drop (pre.length + 1) = post :=
  skipped rank pre post b hpre hb

example : ∃ r, computeGradient 0 ([goodBlock] ++ lonely :: [goodBlock]) = .ok r ∧ r.code = true ∧
    r.blocks.drop 2 = [goodBlock] :=
  C179_skipped 0 [goodBlock] [goodBlock] lonely (by simp [good_regular]) lonely_singular

/-- **C179 (fails).** A point with an invertible shape tensor whose neighborhood has been stretched by the factor two is left
with the deformation gradient zero, because a point of another block has no neighbors. -/
theorem C179_fails : ∃ (bs : List GradBlock) (r : GradResult) (b q : GradBlock) (nbs : List (List Nat)) (ns : List Nat),
    computeGradient 0 bs = .ok r ∧ bs[1]? = some b ∧ r.blocks[1]? = some q ∧ b.Has nbs ∧ nbs[0]? = some ns ∧
    (shapeOf b.body 0 ns).det ≠ 0 ∧ MovedBy b.body b.y 0 ns ((2 : ℝ) • 1) ∧ (q.grad 0).toMatrix = 0 := by
  obtain ⟨r, h, _, hd⟩ := C179_skipped 0 [] [goodBlock] lonely (by simp) lonely_singular
  refine ⟨[lonely, goodBlock], r, goodBlock, goodBlock, cornerList, [1, 2, 3], h, rfl, ?_, good_has, rfl, good_det,
    good_moved, toMatrix_zero⟩
  have := congrArg (fun l : List GradBlock => l[0]?) hd
  simpa using this

/-- **C179 (code and warning).** The computation ends well for any blocks; the code it returns says whether some block has a
point with a singular shape tensor, and only processor 0 reports this, and only for its own blocks. -/
theorem C179_code (rank : Nat) (bs : List GradBlock) (h : ∀ b ∈ bs, ∃ nbs, b.Has nbs) :
    ∃ r, computeGradient rank bs = .ok r ∧ r.blocks.length = bs.length ∧
      (r.code = true ↔ ∃ b ∈ bs, b.Singular) ∧ (r.warned = true ↔ rank = 0 ∧ ∃ b ∈ bs, b.Singular) := by
  have key : ∃ c l, gradLoop false bs = .ok (c, l) ∧ l.length = bs.length ∧ (c = true ↔ ∃ b ∈ bs, b.Singular) := by
    induction bs with
    | nil => exact ⟨false, [], rfl, rfl, by simp⟩
    | cons b bs ih =>
      obtain ⟨nbs, hb⟩ := h b List.mem_cons_self
      by_cases hs : b.Singular
      · obtain ⟨q, _, e⟩ := gradLoop_singular hs bs
        exact ⟨true, q :: bs, e, by simp, by simp [hs]⟩
      · have hr : b.Regular := by
          refine ⟨nbs, hb, fun p ns hp hd => hs ⟨nbs, hb, p, ns, hp, hd⟩⟩
        obtain ⟨c, l, e1, e2, e3⟩ := ih fun b hb => h b (List.mem_cons_of_mem _ hb)
        obtain ⟨q, _, e⟩ := gradLoop_regular hr bs
        refine ⟨c, q :: l, by rw [e, e1]; rfl, by simp [e2], ?_⟩
        rw [e3]
        simp [hs]
  obtain ⟨c, l, e1, e2, e3⟩ := key
  refine ⟨⟨c, c && decide (rank = 0), l⟩, by rw [computeGradient, e1]; rfl, e2, e3, ?_⟩
  show (c && decide (rank = 0)) = true ↔ _
  rw [Bool.and_eq_true, e3, decide_eq_true_iff]
  exact And.comm

example : ∃ r, computeGradient 3 [goodBlock, lonely] = .ok r ∧ r.code = true ∧ r.warned = false := by
  obtain ⟨r, h, _, h1, h2⟩ := C179_code 3 [goodBlock, lonely]
    (by simpa using ⟨⟨_, good_has⟩, ⟨[[]], rfl, rfl⟩⟩)
  exact ⟨r, h, h1.mpr ⟨lonely, by simp, lonely_singular⟩, by simpa using h2⟩

/-- **C179 (singular point).** In the first block with singular shape tensors the deformation gradient is zero at the points
concerned. -/
theorem C179_zero (rank : Nat) (pre post : List GradBlock) (b : GradBlock) (hpre : ∀ b ∈ pre, b.Regular)
    (r : GradResult) (h : computeGradient rank (pre ++ b :: post) = .ok r) (nbs : List (List Nat)) (hb : b.Has nbs)
    (p : Nat) (ns : List Nat) (hp : nbs[p]? = some ns) (hd : (shapeOf b.body p ns).det = 0) :
    ∃ q, r.blocks[pre.length]? = some q ∧ (q.grad p).toMatrix = 0 := by
  obtain ⟨qs, e1, e2⟩ := gradLoop_append pre (b :: post) hpre
  have hlen : pre.length = qs.length := by simpa using congrArg List.length e1
  obtain ⟨q, e3, e4⟩ := gradLoop_singular ⟨nbs, hb, p, ns, hp, hd⟩ post
  rw [computeGradient, e2, e4] at h
  simp only [Outcome.ok_bind] at h
  cases h
  exact ⟨q, by simp [hlen], grad_zero hb hp hd e3⟩

example : ∃ r q, computeGradient 0 [goodBlock, lonely] = .ok r ∧ r.blocks[1]? = some q ∧ (q.grad 0).toMatrix = 0 := by
  obtain ⟨r, h, _⟩ := C179_skipped 0 [goodBlock] [] lonely (by simp [good_regular]) lonely_singular
  obtain ⟨q, h1, h2⟩ := C179_zero 0 [goodBlock] [] lonely (by simp [good_regular]) r h [[]] ⟨rfl, rfl⟩ 0 [] rfl
    (by simp [shapeOf])
  exact ⟨r, q, h, h1, h2⟩

end Verif.Post
