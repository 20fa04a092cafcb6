import Verif.Mesh.IntersectModel
import Verif.Mesh.ExodusLemmas
import Verif.Search.GlobalProps
import Verif.Geometry.HexProps
import Mathlib.Analysis.InnerProductSpace.PiL2

/-! Lemmas for C124. -/

noncomputable section

namespace Verif.Mesh

open Verif Verif.Mech Verif.Neigh Verif.Geometry Verif.Redist Verif.Search
open scoped Classical

/-! ### Distances -/

theorem distance_eq_norm (p q : V3) : distance p q = ‖WithLp.toLp 2 (p - q)‖ := by
  rw [distance, EuclideanSpace.norm_eq]
  simp

theorem distance_triangle (p q r : V3) : distance p r ≤ distance p q + distance q r := by
  rw [distance_eq_norm, distance_eq_norm, distance_eq_norm]
  have : WithLp.toLp 2 (p - r) = WithLp.toLp 2 (p - q) + WithLp.toLp 2 (q - r) := by
    rw [← WithLp.toLp_add]
    congr 1
    abel
  rw [this]
  exact norm_add_le _ _

theorem distance_comm (p q : V3) : distance p q = distance q p := by
  unfold distance
  congr 1
  apply Finset.sum_congr rfl
  intro i _
  ring

theorem distance_nonneg (p q : V3) : 0 ≤ distance p q := Real.sqrt_nonneg _

theorem len_eq_distance (p q : V3) : len (p - q) = distance p q := by
  rw [len, distance, Fin.sum_univ_three]
  congr 1
  simp only [Pi.sub_apply]
  ring

theorem hull_le {k : Nat} {n : Fin k → V3} {center p : V3} {radius : ℝ}
    (hn : ∀ i, distance (n i) center ≤ radius) (hp : Hull n p) : distance p center ≤ radius := by
  by_contra h
  push Not at h
  exact absurd (hull_within (distance_nonneg p center) (fun i => lt_of_le_of_lt (hn i) h) hp) (lt_irrefl _)

theorem hull_diameter {k : Nat} {n : Fin k → V3} {p q : V3} {d : ℝ} (hn : ∀ i j, distance (n i) (n j) ≤ d)
    (hp : Hull n p) (hq : Hull n q) : distance p q ≤ d := by
  refine hull_le (fun i => ?_) hp
  rw [distance_comm]
  exact hull_le (fun j => hn j i) hq

/-! ### The stored mesh -/

/-- The global id of the `i`-th node of an element. -/
def nodeGid (nodeIds : List Nat) (b : ElemBlock) (e i : Nat) : Nat :=
  nodeIds.getD (b.conn.getD (e * b.nodesPerElem + i) 0 - 1) 0

theorem nodeGid_eq {nodeIds : List Nat} {b : ElemBlock} {e i c : Nat} (h : HasNode b e i c)
    (hc : c < nodeIds.length) : nodeIds[c]? = some (nodeGid nodeIds b e i) := by
  unfold nodeGid
  rw [List.getD_eq_getElem?_getD (l := b.conn), h.2, Option.getD_some, Nat.add_sub_cancel,
    List.getD_eq_getElem?_getD, List.getElem?_eq_getElem hc, Option.getD_some]

theorem connNodes_eq {nodeIds : List Nat} {b : ElemBlock} {e : Nat}
    (h : ∀ i < b.nodesPerElem, ∃ c, HasNode b e i c ∧ c < nodeIds.length) (m : Nat) :
    ∀ i, i + m ≤ b.nodesPerElem →
      connNodes nodeIds b e i m = .ok ((List.range' i m).map (nodeGid nodeIds b e)) := by
  induction m with
  | zero => intros; rfl
  | succ m ih =>
    intro i hi
    obtain ⟨c, h1, h2⟩ := h i (by omega)
    rw [connNodes, nodeId_eq h1]
    simp only [Outcome.ok_bind]
    rw [readAt_eq_ok.2 (nodeGid_eq h1 h2)]
    simp only [Outcome.ok_bind]
    rw [ih (i + 1) (by omega)]
    rfl

/-- The ids of the nodes of an element. -/
def connOf (nodeIds : List Nat) (t : ElemBlock × Nat) : List Nat :=
  (List.range' 0 t.1.nodesPerElem).map (nodeGid nodeIds t.1 t.2)

theorem connElements_eq {nodeIds : List Nat} {b : ElemBlock}
    (h : ∀ e < b.numElem, ∀ i < b.nodesPerElem, ∃ c, HasNode b e i c ∧ c < nodeIds.length) (m : Nat) :
    ∀ e, e + m ≤ b.numElem →
      connElements nodeIds b e m = .ok ((List.range' e m).flatMap fun e => connOf nodeIds (b, e)) := by
  induction m with
  | zero => intros; rfl
  | succ m ih =>
    intro e he
    rw [connElements, connNodes_eq (h e (by omega)) _ 0 (by omega)]
    simp only [Outcome.ok_bind]
    rw [ih (e + 1) (by omega)]
    rfl

theorem connBlocks_eq {nodeIds : List Nat} (bs : List ElemBlock)
    (h : ∀ b ∈ bs, ∀ e < b.numElem, ∀ i < b.nodesPerElem, ∃ c, HasNode b e i c ∧ c < nodeIds.length) :
    connBlocks nodeIds bs = .ok ((elements bs).flatMap (connOf nodeIds)) := by
  induction bs with
  | nil => rfl
  | cons b bs ih =>
    rw [connBlocks, connElements_eq (h b List.mem_cons_self) _ 0 (by omega)]
    simp only [Outcome.ok_bind]
    rw [ih fun c hc => h c (List.mem_cons_of_mem _ hc)]
    simp only [Outcome.ok_bind]
    rw [elements_cons, List.flatMap_append, List.flatMap_map, List.range_eq_range']

theorem sizes_eq (bs : List ElemBlock) :
    (bs.flatMap fun b => List.replicate b.numElem b.nodesPerElem) =
      (elements bs).map fun t => t.1.nodesPerElem := by
  induction bs with
  | nil => rfl
  | cons b bs ih =>
    rw [List.flatMap_cons, ih, elements_cons, List.map_append, List.map_map]
    congr 1
    apply List.ext_getElem <;> simp

theorem mem_elements {bs : List ElemBlock} {b : ElemBlock} {e : Nat} (h : (b, e) ∈ elements bs) :
    b ∈ bs ∧ e < b.numElem := by
  obtain ⟨c, hc, h⟩ := List.mem_flatMap.mp h
  obtain ⟨i, hi, h⟩ := List.mem_map.mp h
  injection h with h1 h2
  subst h1 h2
  exact ⟨hc, List.mem_range.mp hi⟩

theorem positionsOf_eq {g : Genesis} {ids nodeIds : List Nat} {sizes conn : List Nat} (hn : nodeIds.Nodup)
    (hl : nodeIds.length = g.coords.length) {b : ElemBlock} {e : Nat}
    (h : ∀ i < b.nodesPerElem, ∃ c, HasNode b e i c ∧ c < g.coords.length) (m : Nat) :
    ∀ i, i + m ≤ b.nodesPerElem →
      positionsOf ⟨ids, sizes, conn, nodeIds, g.coords⟩ ((List.range' i m).map (nodeGid nodeIds b e)) =
        .ok ((List.range' i m).map (corner g b e)) := by
  induction m with
  | zero => intros; rfl
  | succ m ih =>
    intro i hi
    obtain ⟨c, h1, h2⟩ := h i (by omega)
    rw [List.range'_succ, List.map_cons, positionsOf, lid_self hn (nodeGid_eq h1 (by omega))]
    simp only [Outcome.ok_bind]
    rw [readAt_eq_ok.2 (corner_eq h1 h2)]
    simp only [Outcome.ok_bind]
    rw [ih (i + 1) (by omega)]
    rfl

theorem flatMap_length_eq (nodeIds : List Nat) (l : List (ElemBlock × Nat)) :
    (l.flatMap (connOf nodeIds)).length = (l.map fun t => t.1.nodesPerElem).sum := by
  rw [List.length_flatMap]
  congr 1
  apply List.map_congr_left
  intro t _
  simp [connOf]

/-! ### The largest element -/

theorem squareOf_eq (ps : List V3) (i j : Nat) :
    squareOf ps i j = distance (ps.getD i 0) (ps.getD j 0) ^ 2 := by
  rw [distance, Real.sq_sqrt (Finset.sum_nonneg fun i _ => sq_nonneg _), Fin.sum_univ_three, squareOf]
  simp only [Pi.sub_apply]
  ring

theorem fold_max {α : Type} (P : α → Prop) [DecidablePred P] (f : α → ℝ) (l : List α) : ∀ m : ℝ,
    m ≤ l.foldl (fun m t => if P t then if f t > m then f t else m else m) m ∧
    (∀ t ∈ l, P t → f t ≤ l.foldl (fun m t => if P t then if f t > m then f t else m else m) m) ∧
    (l.foldl (fun m t => if P t then if f t > m then f t else m else m) m = m ∨
      ∃ t ∈ l, P t ∧ l.foldl (fun m t => if P t then if f t > m then f t else m else m) m = f t) := by
  induction l with
  | nil => intro m; simp
  | cons a l ih =>
    intro m
    rw [List.foldl_cons]
    obtain ⟨h1, h2, h3⟩ := ih (if P a then if f a > m then f a else m else m)
    have hm : m ≤ (if P a then if f a > m then f a else m else m) := by
      split_ifs with h4 h5
      · exact h5.le
      · exact le_refl _
      · exact le_refl _
    have ha : P a → f a ≤ (if P a then if f a > m then f a else m else m) := by
      intro h4
      rw [if_pos h4]
      split_ifs with h5
      · exact le_refl _
      · exact not_lt.mp h5
    have hc : (if P a then if f a > m then f a else m else m) = m ∨
        (P a ∧ (if P a then if f a > m then f a else m else m) = f a) := by
      split_ifs with h4 h5
      · exact .inr ⟨h4, rfl⟩
      · exact .inl rfl
      · exact .inl rfl
    refine ⟨hm.trans h1, ?_, ?_⟩
    · intro t ht hP
      rcases List.mem_cons.1 ht with rfl | ht
      · exact (ha hP).trans h1
      · exact h2 t ht hP
    · rcases h3 with h3 | ⟨t, ht, hP, h3⟩
      · rcases hc with hc | ⟨hP, hc⟩
        · exact .inl (h3.trans hc)
        · exact .inr ⟨a, List.mem_cons_self, hP, h3.trans hc⟩
      · exact .inr ⟨t, List.mem_cons_of_mem _ ht, hP, h3⟩

theorem mem_pairs {k i j : Nat} :
    (i, j) ∈ ((List.range k).flatMap fun i => (List.range' i (k - i)).map fun j => (i, j)) ↔ i ≤ j ∧ j < k := by
  constructor
  · intro h
    obtain ⟨a, ha, h⟩ := List.mem_flatMap.mp h
    obtain ⟨b, hb, h⟩ := List.mem_map.mp h
    injection h with h1 h2
    subst h1 h2
    have ha := List.mem_range.mp ha
    have hb := List.mem_range'_1.mp hb
    omega
  · rintro ⟨h1, h2⟩
    exact List.mem_flatMap.mpr ⟨i, List.mem_range.mpr (by omega),
      List.mem_map.mpr ⟨j, List.mem_range'_1.mpr (by omega), rfl⟩⟩

theorem pairMax_spec (ps : List V3) (k : Nat) {m : ℝ} (hm : 0 ≤ m) :
    m ≤ pairMax ps k m ∧ (∀ i < k, ∀ j < k, squareOf ps i j ≤ pairMax ps k m) ∧
    (pairMax ps k m = m ∨ ∃ i < k, ∃ j < k, pairMax ps k m = squareOf ps i j) := by
  obtain ⟨h1, h2, h3⟩ := fold_max (fun t : Nat × Nat => t.1 ≠ t.2) (fun t => squareOf ps t.1 t.2)
    ((List.range k).flatMap fun i => (List.range' i (k - i)).map fun j => (i, j)) m
  refine ⟨h1, ?_, ?_⟩
  · intro i hi j hj
    have hsym : squareOf ps i j = squareOf ps j i := by rw [squareOf_eq, squareOf_eq, distance_comm]
    rcases Nat.lt_trichotomy i j with h | rfl | h
    · exact h2 (i, j) (mem_pairs.2 ⟨h.le, hj⟩) h.ne
    · refine le_trans ?_ (hm.trans h1)
      rw [squareOf]
      simp
    · rw [hsym]
      exact h2 (j, i) (mem_pairs.2 ⟨h.le, hi⟩) h.ne
  · rcases h3 with h3 | ⟨⟨i, j⟩, ht, -, h3⟩
    · exact .inl h3
    · have := mem_pairs.1 ht
      exact .inr ⟨i, by omega, j, this.2, h3⟩

/-! ### The neighbors -/

theorem firstNodes_ofFn (n : Fin 8 → V3) : firstNodes 8 (List.ofFn n) = .ok n := by
  rw [firstNodes, if_pos (by simp)]
  congr 1
  funext i
  rw [List.getD_eq_getElem?_getD, List.getElem?_ofFn]
  simp

/-- The element `k` meets the sphere around the point `g`, according to the test of C120. -/
def Meets (n : Nat → Fin 8 → V3) (x : Nat → V3) (h : Nat → ℝ) (g k : Nat) : Prop :=
  hexahedronSphere (n k) (x g) (h g) ≠ .ok .outside

theorem keepNeighbors_eq {nodesOf : Nat → Outcome (List V3)} {n : Nat → Fin 8 → V3} {x : Nat → V3} {h : Nat → ℝ}
    {owned : List Nat} {elem g : Nat} (hg : owned[elem]? = some g) (hh : 0 ≤ h g) (gids : List Nat)
    (hn : ∀ k ∈ gids, nodesOf k = .ok (List.ofFn (n k))) :
    keepNeighbors nodesOf x h owned elem gids = .ok (gids.filter fun k => Meets n x h g k) := by
  induction gids with
  | nil => rfl
  | cons k gids ih =>
    obtain ⟨s, hs⟩ := C120_hex_defined (n k) (x g) hh
    rw [keepNeighbors, readAt_eq_ok.2 hg]
    simp only [Outcome.ok_bind]
    rw [hn k List.mem_cons_self]
    simp only [Outcome.ok_bind]
    rw [if_neg (by simp), firstNodes_ofFn]
    simp only [Outcome.ok_bind]
    rw [hs]
    simp only [Outcome.ok_bind]
    rw [ih fun c hc => hn c (List.mem_cons_of_mem _ hc)]
    simp only [Outcome.ok_bind]
    by_cases hm : s = .outside
    · rw [if_neg (not_not.2 hm), List.filter_cons_of_neg]
      rw [decide_eq_true_iff]
      unfold Meets
      rw [hs, hm]
      simp
    · rw [if_pos hm, List.filter_cons_of_pos]
      rw [decide_eq_true_iff]
      unfold Meets
      rw [hs]
      simpa using hm

theorem gidsOf_eq' {ov lids gs : List Nat} (h : lids.map (fun l => ov[l]?) = gs.map some) :
    gidsOf ov lids = .ok gs := by
  induction lids generalizing gs with
  | nil =>
    cases gs with
    | nil => rfl
    | cons _ _ => simp at h
  | cons l lids ih =>
    cases gs with
    | nil => simp at h
    | cons g gs =>
      rw [List.map_cons, List.map_cons] at h
      injection h with h1 h2
      rw [gidsOf, readAt_eq_ok.2 h1, ih h2]

theorem refineLoop_eq {nodesOf : Nat → Outcome (List V3)} {n : Nat → Fin 8 → V3} {x : Nat → V3} {h : Nat → ℝ}
    {nb : Nat → List Nat} {owned ov : List Nat} (hh : ∀ g ∈ owned, 0 ≤ h g)
    (hn : ∀ g ∈ owned, ∀ k ∈ nb g, nodesOf k = .ok (List.ofFn (n k))) (lists : List (List Nat)) :
    ∀ (pre : List (List Nat)) (own : List Nat) (fuel : Nat), pre.length + own.length = owned.length →
      own = owned.drop pre.length → lists.length ≤ fuel →
      List.Forall₂ (fun lids g => lids.map (fun l => ov[l]?) = (nb g).map some) lists own →
      refineLoop nodesOf x h ⟨owned, ov, encode (pre ++ lists)⟩ fuel (encode pre).length pre.length =
        .ok (own.map fun g => (nb g).filter fun k => Meets n x h g k) := by
  induction lists with
  | nil =>
    intro pre own fuel _ _ _ hf
    cases hf
    cases fuel <;> simp [refineLoop]
  | cons lids lists ih =>
    intro pre own fuel hlen hown hfuel hf
    cases hf with
    | cons h1 h2 =>
      rename_i g own
      obtain ⟨fuel, rfl⟩ : ∃ f, fuel = f + 1 := ⟨fuel - 1, by rw [List.length_cons] at hfuel; omega⟩
      have hget : owned[pre.length]? = some g := by
        have : (owned.drop pre.length)[0]? = some g := by rw [← hown]; rfl
        rwa [List.getElem?_drop, Nat.add_zero] at this
      have hgm : g ∈ owned := List.mem_of_getElem? hget
      have hlist : encode (pre ++ lids :: lists) = encode pre ++ lids.length :: (lids ++ encode lists) := by
        rw [encode_append, encode_cons]
      have hnext := ih (pre ++ [lids]) own fuel (by simp at hlen ⊢; omega) (by
          rw [List.length_append, List.length_singleton, ← List.drop_drop, ← hown]
          rfl) (by rw [List.length_cons] at hfuel; omega) h2
      rw [List.append_assoc, List.singleton_append] at hnext
      have hpos : (encode (pre ++ [lids])).length = (encode pre).length + 1 + lids.length := by
        rw [encode_append]
        simp
        omega
      rw [hpos, List.length_append, List.length_singleton] at hnext
      rw [refineLoop]
      simp only
      rw [if_pos (by rw [hlist]; simp)]
      rw [hlist] at hnext ⊢
      rw [readAt_mid _ _ _ _ rfl]
      simp only [Outcome.ok_bind]
      have hids : readIds (encode pre ++ lids.length :: (lids ++ encode lists)) ((encode pre).length + 1)
          lids.length = .ok lids := by
        have := readIds_mid (encode pre ++ [lids.length]) lids (encode lists) ((encode pre).length + 1)
          lids.length (by simp) rfl
        rwa [List.append_assoc, List.singleton_append] at this
      rw [hids]
      simp only [Outcome.ok_bind]
      rw [gidsOf_eq' h1]
      simp only [Outcome.ok_bind]
      rw [keepNeighbors_eq hget (hh g hgm) (nb g) (hn g hgm)]
      simp only [Outcome.ok_bind]
      rw [hnext]
      rfl

theorem relabel_eq {ov gids : List Nat} (h : ∀ g ∈ gids, g ∈ ov) : relabel ov gids = .ok (gids.map ov.idxOf) := by
  induction gids with
  | nil => rfl
  | cons g gids ih =>
    rw [relabel, if_pos (h g List.mem_cons_self), ih fun k hk => h k (List.mem_cons_of_mem _ hk)]
    rfl

theorem relabelAll_eq {ov : List Nat} {ls : List (List Nat)} (h : ∀ l ∈ ls, ∀ g ∈ l, g ∈ ov) :
    relabelAll ov ls = .ok (encode (ls.map (·.map ov.idxOf))) := by
  induction ls with
  | nil => rfl
  | cons l ls ih =>
    rw [relabelAll, relabel_eq (h l List.mem_cons_self)]
    simp only [Outcome.ok_bind]
    rw [ih fun k hk => h k (List.mem_cons_of_mem _ hk)]
    simp only [Outcome.ok_bind]
    rw [List.map_cons, encode_cons, List.length_map]

end Verif.Mesh
