import Verif.Post.VisLemmas
import Mathlib.MeasureTheory.Measure.Lebesgue.VolumeOfBalls
import Mathlib.Analysis.SpecialFunctions.Trigonometric.Inverse

/-!
# Properties: the file of bonds; the radius of a point
-/

noncomputable section

namespace Verif.Post

open Verif Verif.Neigh Verif.Mech
open scoped Classical

/-- The bonds to be shown: all, or those of the point with the (one-based) id that was asked for. -/
def shown (nodeId : Option Int) (bs : List VisBlock) (nss : List (List (List Nat))) : List (Int × Int) :=
  ((bs.zip nss).flatMap fun p => pairsOf p.1.ids p.2).filter fun e => decide (∀ n, nodeId = some n → e.1 = n - 1)

/-- **C182.** A reader of the file gets, for each bond of the processor that is to be shown and in the order of the neighbor
lists, the segment between the reference positions of its two ends, and nothing else.  The points of the file are the ends of
these bonds, each once, by ascending id. -/
theorem C182_file (nodeId : Option Int) (bs : List VisBlock) (nss : List (List (List Nat))) (X : Int → V3)
    (h : List.Forall₂ (fun b n => b.Sound n X) bs nss) :
    ∃ (f : List Tok) (ps : List V3) (cs : List (Nat × Nat)) (gs : List Int), bondFile nodeId bs = .ok f ∧ readVTK f = some (ps, cs) ∧
      segments ps cs = some ((shown nodeId bs nss).map fun e => (X e.1, X e.2)) ∧
      gs.Pairwise (· < ·) ∧ ps = gs.map X ∧ ∀ g, g ∈ gs ↔ ∃ e ∈ shown nodeId bs nss, g = e.1 ∨ g = e.2 := by
  have hs : shown nodeId bs nss = (allPairs bs nss).filter fun e => storeData (specified nodeId) e.1 := by
    unfold shown allPairs
    apply List.filter_congr
    intro e _
    cases nodeId with
    | none => simp [storeData, specified]
    | some n => simp [storeData, specified]
  have hc := connectivity_eq (node := specified nodeId) h
  rw [← hs] at hc
  have hcoord : ∀ g ∈ nodeIds (shown nodeId bs nss), recorded bs g = some (X g) := by
    intro g hg
    obtain ⟨e, he, hg⟩ := mem_nodeIds.mp hg
    obtain ⟨⟨b, n⟩, hb, he⟩ := List.mem_flatMap.mp (List.mem_filter.mp he).1
    have hbs := (List.of_mem_zip hb).1
    have hS : b.Sound n X := by
      have := List.forall₂_iff_zip.mp h
      exact this.2 hb
    obtain ⟨h1, h2⟩ := mem_pairsOf hS he
    rcases hg with rfl | rfl
    · exact recorded_eq h hbs h1
    · exact recorded_eq h hbs h2
  obtain ⟨m, e1, e2, _⟩ := writePoints_eq (nodeIds (shown nodeId bs nss)) hcoord (List.nodup_dedup _) 0 fun _ => none
  have hends : ∀ e ∈ shown nodeId bs nss, e.1 ∈ nodeIds (shown nodeId bs nss) ∧ e.2 ∈ nodeIds (shown nodeId bs nss) :=
    fun e he => ⟨mem_nodeIds.mpr ⟨e, he, Or.inl rfl⟩, mem_nodeIds.mpr ⟨e, he, Or.inr rfl⟩⟩
  have e3 := writeCells_eq (m := m) (f := fun g => (nodeIds (shown nodeId bs nss)).idxOf g) (shown nodeId bs nss)
    fun e he => by
      obtain ⟨k1, k2⟩ := hends e he
      refine ⟨?_, ?_⟩
      · rw [e2 _ k1, Nat.zero_add]
      · rw [e2 _ k2, Nat.zero_add]
  have hf : bondFile nodeId bs = bondFile nodeId bs := rfl
  conv_rhs at hf => rw [bondFile, hc, Outcome.ok_bind, writeVTK, e1, Outcome.ok_bind, e3, Outcome.ok_bind]
  refine ⟨_, (nodeIds (shown nodeId bs nss)).map X, (shown nodeId bs nss).map fun e =>
    ((nodeIds (shown nodeId bs nss)).idxOf e.1, (nodeIds (shown nodeId bs nss)).idxOf e.2), nodeIds (shown nodeId bs nss),
    hf, ?_, segments_eq _ hends, sorted_nodeIds _, rfl, fun g => mem_nodeIds⟩
  have r1 := readPoints_toks ((nodeIds (shown nodeId bs nss)).map X)
  have r2 := readCells_toks ((shown nodeId bs nss).map fun e =>
    ((nodeIds (shown nodeId bs nss)).idxOf e.1, (nodeIds (shown nodeId bs nss)).idxOf e.2))
  rw [List.length_map, List.flatMap_map] at r1
  rw [List.length_map] at r2
  simp only [List.cons_append, List.nil_append, List.append_assoc, readVTK]
  rw [r1]
  simp only [if_true, r2, readTypes_toks, Option.isSome_some, and_self]

/-- Two blocks: points 5 and 7 bonded to each other and to point 9, which another processor owns. -/
def visBlocks : List VisBlock :=
  [⟨[5, 9, 7], fun i => if i = 0 then ![5, 0, 0] else if i = 1 then ![9, 0, 0] else ![7, 0, 0], 1, encode [[2, 1]]⟩,
   ⟨[7, 5], fun i => if i = 0 then ![7, 0, 0] else ![5, 0, 0], 1, encode [[1]]⟩]

theorem visBlocks_sound : List.Forall₂ (fun (b : VisBlock) n => b.Sound n fun g => ![(g : ℝ), 0, 0]) visBlocks
    [[[2, 1]], [[1]]] := by
  refine List.Forall₂.cons ⟨rfl, rfl, by simp, by simp, ?_⟩
    (List.Forall₂.cons ⟨rfl, rfl, by simp, by simp, ?_⟩ List.Forall₂.nil)
  · intro i g hi
    match i, hi with
    | 0, hi => cases hi; simp
    | 1, hi => cases hi; simp
    | 2, hi => cases hi; simp
  · intro i g hi
    match i, hi with
    | 0, hi => cases hi; simp
    | 1, hi => cases hi; simp

example : ∃ f ps cs, bondFile (some 8) visBlocks = .ok f ∧ readVTK f = some (ps, cs) ∧
    segments ps cs = some [(![7, 0, 0], ![5, 0, 0])] := by
  obtain ⟨f, ps, cs, _, h1, h2, h3, _⟩ := C182_file (some 8) visBlocks _ _ visBlocks_sound
  refine ⟨f, ps, cs, h1, h2, ?_⟩
  rw [h3]
  have : shown (some 8) visBlocks [[[2, 1]], [[1]]] = [(7, 5)] := by
    simp [shown, visBlocks, pairsOf, gid, List.range_succ]
  rw [this]
  simp

/-- **C183.** The radius of a point is that of the ball whose volume is the volume of the point. -/
theorem C183_radius (v : ℝ) (hv : 0 ≤ v) : ∃ r, radiusOf v = .ok r ∧ 0 ≤ r ∧
    MeasureTheory.volume (Metric.ball (0 : EuclideanSpace ℝ (Fin 3)) r) = ENNReal.ofReal v := by
  have hc : 0 ≤ 0.75 / Real.arccos (-1) * v := by
    rw [Real.arccos_neg_one]
    have := Real.pi_pos
    positivity
  refine ⟨(0.75 / Real.arccos (-1) * v) ^ (1 / 3 : ℝ), ?_, Real.rpow_nonneg hc _, ?_⟩
  · unfold radiusOf
    rw [if_neg (not_lt.mpr hc)]
  · rw [EuclideanSpace.volume_ball_fin_three, ← ENNReal.ofReal_pow (Real.rpow_nonneg hc _), ← Real.rpow_natCast,
      ← Real.rpow_mul hc, ← ENNReal.ofReal_mul' (by positivity)]
    congr 1
    rw [Real.arccos_neg_one]
    have := Real.pi_pos
    norm_num
    field_simp

example : ∃ r, radiusOf 2 = .ok r ∧ 0 ≤ r := by
  obtain ⟨r, h1, h2, _⟩ := C183_radius 2 (by norm_num)
  exact ⟨r, h1, h2⟩

/-- **C183 (negative volume).** For a negative volume, which some elements of a mesh can have, there is no radius. -/
theorem C183_negative (v : ℝ) (hv : v < 0) : radiusOf v = .ub := by
  unfold radiusOf
  rw [if_pos]
  rw [Real.arccos_neg_one]
  have := Real.pi_pos
  exact mul_neg_of_pos_of_neg (by positivity) hv

example : radiusOf (-1) = .ub := C183_negative (-1) (by norm_num)

end Verif.Post
