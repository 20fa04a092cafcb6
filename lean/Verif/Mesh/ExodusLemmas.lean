import Verif.Mesh.ExodusSpec
import Verif.Neigh.Blocks
import Verif.Geometry.VolumeProps

/-! Lemmas for C122. -/

noncomputable section

namespace Verif.Mesh

open Verif Verif.Mech Verif.Neigh Verif.Geometry
open scoped Classical

theorem nodeId_eq {b : ElemBlock} {e i c : Nat} (h : HasNode b e i c) : nodeId b e i = .ok c := by
  rw [nodeId, readAt_eq_ok.2 h.2]

theorem corner_eq {g : Genesis} {b : ElemBlock} {e i c : Nat} (h : HasNode b e i c)
    (hc : c < g.coords.length) : g.coords[c]? = some (corner g b e i) := by
  unfold corner
  rw [List.getD_eq_getElem?_getD (l := b.conn), h.2, Option.getD_some, Nat.add_sub_cancel,
    List.getD_eq_getElem?_getD, List.getElem?_eq_getElem hc, Option.getD_some]

theorem nodePositions_eq {g : Genesis} {b : ElemBlock} {e : Nat}
    (h : ∀ i < b.nodesPerElem, ∃ c, HasNode b e i c ∧ c < g.coords.length) (m : Nat) :
    ∀ i, i + m ≤ b.nodesPerElem →
      nodePositions g.coords b e i m = .ok ((List.range' i m).map (corner g b e)) := by
  induction m with
  | zero => intros; rfl
  | succ m ih =>
    intro i hi
    obtain ⟨c, h1, h2⟩ := h i (by omega)
    rw [nodePositions, nodeId_eq h1]
    simp only [Outcome.ok_bind]
    rw [readAt_eq_ok.2 (corner_eq h1 h2)]
    simp only [Outcome.ok_bind]
    rw [ih (i + 1) (by omega)]
    rfl

theorem firstNodes_eq (f : Nat → V3) {k n : Nat} (h : k ≤ n) :
    firstNodes k ((List.range' 0 n).map f) = .ok fun i : Fin k => f i := by
  rw [firstNodes, if_pos (by simpa using h)]
  congr 1
  funext i
  have hi : (i : Nat) < n := lt_of_lt_of_le i.2 h
  rw [List.getD_eq_getElem?_getD, List.getElem?_map, List.getElem?_range' (by simpa using hi)]
  simp

theorem kind_tet {t : String} (h : upper t ∈ ["TET", "TETRA", "TET4", "TET10"]) : elementKind t = .ok .tet := by
  simp only [List.mem_cons, List.not_mem_nil, or_false] at h
  unfold elementKind
  rw [if_neg (by rcases h with h | h | h | h <;> rw [h] <;> decide), if_pos h]

theorem kind_hex {t : String} (h : upper t ∈ ["HEX", "HEX8", "HEX20"]) : elementKind t = .ok .hex := by
  simp only [List.mem_cons, List.not_mem_nil, or_false] at h
  unfold elementKind
  rw [if_neg (by rcases h with h | h | h <;> rw [h] <;> decide),
    if_neg (by rcases h with h | h | h <;> rw [h] <;> decide), if_pos h]

/-- The three groups of names exclude each other. -/
theorem kinds_disjoint {t : String} :
    (t = "SPHERE" → t ∉ ["TET", "TETRA", "TET4", "TET10"] ∧ t ∉ ["HEX", "HEX8", "HEX20"]) ∧
    (t ∈ ["TET", "TETRA", "TET4", "TET10"] → t ∉ ["HEX", "HEX8", "HEX20"]) := by
  refine ⟨?_, ?_⟩
  · rintro rfl
    decide
  · intro h
    simp only [List.mem_cons, List.not_mem_nil, or_false] at h
    rcases h with rfl | rfl | rfl | rfl <;> decide

theorem toPoint_ok {g : Genesis} {b : ElemBlock} {e : Nat} (he : e < b.numElem)
    (h : Fit g b e) :
    ∃ kind p, elementKind b.elemType = .ok kind ∧
      toPoint kind b e ((List.range' 0 b.nodesPerElem).map (corner g b e)) = .ok p ∧
      Represents g b e ⟨b.id, p.2, p.1⟩ := by
  rcases h with ⟨ht, hn, ha, hl⟩ | ⟨ht, hn, hd⟩ | ⟨ht, hn, hr⟩
  · have hlt : e * b.numAttr + 1 < b.attributes.length := by
      rw [hl]
      have : (e + 1) * b.numAttr ≤ b.numElem * b.numAttr := Nat.mul_le_mul_right _ he
      rw [Nat.add_mul, Nat.one_mul] at this
      omega
    obtain ⟨m, hm⟩ : ∃ m, b.nodesPerElem = m + 1 := ⟨b.nodesPerElem - 1, by omega⟩
    refine ⟨.sphere, (corner g b e 0, b.attributes[e * b.numAttr + 1]), ?_, ?_, ?_⟩
    · rw [elementKind, if_pos ht]
    · rw [toPoint, hm, List.range'_succ, List.map_cons]
      rw [show readAt (corner g b e 0 :: (List.range' (0 + 1) m).map (corner g b e)) 0 =
        .ok (corner g b e 0) from rfl]
      simp only [Outcome.ok_bind]
      rw [readAt_eq_ok.2 (List.getElem?_eq_getElem hlt)]
      rfl
    · obtain ⟨d1, d2⟩ := (kinds_disjoint (t := upper b.elemType)).1 ht
      exact ⟨rfl, fun _ => ⟨rfl, List.getElem?_eq_getElem hlt⟩, fun h => absurd h d1, fun h => absurd h d2⟩
  · have h2 := ((C118_tet fun i : Fin 4 => corner g b e i).1 _ _).mpr ⟨hd, rfl, rfl⟩
    refine ⟨.tet, ((1 / 4 : ℝ) • ∑ i : Fin 4, corner g b e i,
      det3 (corner g b e 1 - corner g b e 0) (corner g b e 2 - corner g b e 0)
        (corner g b e 3 - corner g b e 0) / 6), kind_tet ht, ?_, ?_⟩
    · rw [toPoint, firstNodes_eq _ hn]
      simp only [Outcome.ok_bind]
      exact h2
    · have d2 := (kinds_disjoint (t := upper b.elemType)).2 ht
      exact ⟨rfl, fun h => absurd ht ((kinds_disjoint (t := upper b.elemType)).1 h).1,
        fun _ => ⟨rfl, rfl⟩, fun h => absurd h d2⟩
  · obtain ⟨c, v, h1, h2⟩ := C118_hex_defined hr
    refine ⟨.hex, (c, v), kind_hex ht, ?_, ?_⟩
    · rw [toPoint, firstNodes_eq _ hn]
      simp only [Outcome.ok_bind]
      exact h1
    · refine ⟨rfl, fun h => absurd ht ((kinds_disjoint (t := upper b.elemType)).1 h).2,
        fun h => absurd ht ((kinds_disjoint (t := upper b.elemType)).2 h), fun _ => ⟨?_, h2, ?_, h1⟩⟩
      · exact C118_hex_volume (C118_hex_same h1).1
      · exact C118_hex_hull h1

theorem lid_self {ids : List Nat} (hn : ids.Nodup) {k gid : Nat} (h : ids[k]? = some gid) :
    lidOf ids gid = .ok k := by
  obtain ⟨hk, rfl⟩ := List.getElem?_eq_some_iff.mp h
  rw [lidOf, if_pos (List.getElem_mem hk), hn.idxOf_getElem k hk]

theorem drop_take_succ {ids : List Nat} {k m gid : Nat} (h : ids[k]? = some gid) :
    (ids.drop k).take (m + 1) = gid :: (ids.drop (k + 1)).take m := by
  obtain ⟨hk, rfl⟩ := List.getElem?_eq_some_iff.mp h
  rw [List.drop_eq_getElem_cons hk, List.take_succ_cons]

theorem loadElements_ok {g : Genesis} {ids : List Nat} (hn : ids.Nodup) {b : ElemBlock} {kind : Kind}
    (hnodes : ∀ e < b.numElem, ∀ i < b.nodesPerElem, ∃ c, HasNode b e i c ∧ c < g.coords.length)
    (hfit : ∀ e < b.numElem, ∃ p,
      toPoint kind b e ((List.range' 0 b.nodesPerElem).map (corner g b e)) = .ok p ∧
        Represents g b e ⟨b.id, p.2, p.1⟩) (m : Nat) :
    ∀ (iElem : Nat) (done rest : List PointData), iElem + m ≤ b.numElem → m ≤ rest.length →
      done.length + rest.length = ids.length →
      ∃ new, loadElements g ids kind b m iElem done.length (done ++ rest) =
          .ok ((ids.drop done.length).take m, done ++ new ++ rest.drop m) ∧
        List.Forall₂ (Represents g b) (List.range' iElem m) new := by
  induction m with
  | zero =>
    intro iElem done rest _ _ _
    exact ⟨[], by simp [loadElements], .nil⟩
  | succ m ih =>
    intro iElem done rest h1 h2 h3
    obtain ⟨p, hp1, hp2⟩ := hfit iElem (by omega)
    obtain ⟨r, rest, rfl⟩ := List.exists_cons_of_ne_nil (l := rest) (by rintro rfl; simp at h2)
    rw [List.length_cons] at h2 h3
    have hk : ids[done.length]? = some ids[done.length] := List.getElem?_eq_getElem (by omega)
    obtain ⟨new, h4, h5⟩ := ih (iElem + 1) (done ++ [⟨b.id, p.2, p.1⟩]) rest (by omega) (by omega)
      (by rw [List.length_append, List.length_singleton]; omega)
    refine ⟨⟨b.id, p.2, p.1⟩ :: new, ?_, ?_⟩
    · have hload : loadElement g ids kind b iElem done.length (done ++ r :: rest) =
          .ok (ids[done.length], (done ++ [⟨b.id, p.2, p.1⟩]) ++ rest) := by
        rw [loadElement, nodePositions_eq (hnodes iElem (by omega)) b.nodesPerElem 0 (by omega)]
        simp only [Outcome.ok_bind]
        rw [readAt_eq_ok.2 hk]
        simp only [Outcome.ok_bind]
        rw [hp1]
        simp only [Outcome.ok_bind]
        rw [lid_self hn hk]
        simp only [Outcome.ok_bind]
        rw [if_pos (by rw [List.length_append, List.length_cons]; omega)]
        have hset : (done ++ r :: rest).set done.length ⟨b.id, p.2, p.1⟩ =
            (done ++ [⟨b.id, p.2, p.1⟩]) ++ rest := by simp
        rw [hset]
      rw [loadElements, hload]
      simp only [Outcome.ok_bind]
      rw [List.length_append, List.length_singleton] at h4
      rw [h4]
      simp only [Outcome.ok_bind]
      rw [drop_take_succ hk, List.drop_succ_cons]
      simp only [List.append_assoc, List.nil_append, List.cons_append]
    · rw [List.range'_succ]
      exact .cons hp2 h5

theorem elements_cons (b : ElemBlock) (bs : List ElemBlock) :
    elements (b :: bs) = (List.range b.numElem).map (fun e => (b, e)) ++ elements bs := by
  simp [elements]

theorem elements_length_cons (b : ElemBlock) (bs : List ElemBlock) :
    (elements (b :: bs)).length = b.numElem + (elements bs).length := by
  simp [elements_cons]

/-- The kind is the same for all elements of the block. -/
theorem block_kind {g : Genesis} {b : ElemBlock} (h0 : b.numElem ≠ 0) (hfit : ∀ e < b.numElem, Fit g b e) :
    ∃ kind, elementKind b.elemType = .ok kind ∧ ∀ e < b.numElem, ∃ p,
      toPoint kind b e ((List.range' 0 b.nodesPerElem).map (corner g b e)) = .ok p ∧
        Represents g b e ⟨b.id, p.2, p.1⟩ := by
  obtain ⟨kind, _, hk, _⟩ := toPoint_ok (e := 0) (by omega) (hfit 0 (by omega))
  refine ⟨kind, hk, ?_⟩
  intro e he
  obtain ⟨kind', p, hk', h1, h2⟩ := toPoint_ok he (hfit e he)
  rw [hk] at hk'
  injection hk' with hk'
  subst hk'
  exact ⟨p, h1, h2⟩

theorem loadBlock_ok {g : Genesis} {ids : List Nat} (hn : ids.Nodup) {b : ElemBlock}
    (hnodes : ∀ e < b.numElem, ∀ i < b.nodesPerElem, ∃ c, HasNode b e i c ∧ c < g.coords.length)
    (hfit : ∀ e < b.numElem, Fit g b e) (done rest : List PointData) (bl : List (String × List Nat))
    (hnew : b.title ∉ bl.map Prod.fst) (h2 : b.numElem ≤ rest.length)
    (h3 : done.length + rest.length = ids.length) :
    ∃ new, loadBlock g ids ⟨done.length, done ++ rest, bl⟩ b =
        .ok ⟨done.length + b.numElem, done ++ new ++ rest.drop b.numElem,
          bl ++ [(b.title, (ids.drop done.length).take b.numElem)]⟩ ∧
      List.Forall₂ (fun (t : ElemBlock × Nat) p => Represents g t.1 t.2 p)
        ((List.range b.numElem).map fun e => (b, e)) new := by
  by_cases h0 : b.numElem = 0
  · refine ⟨[], ?_, by simp [h0]⟩
    rw [loadBlock, if_neg hnew, if_pos h0, h0]
    simp
  · obtain ⟨kind, hk, hp⟩ := block_kind h0 hfit
    obtain ⟨new, h4, h5⟩ := loadElements_ok hn hnodes hp b.numElem 0 done rest (by omega) h2 h3
    refine ⟨new, ?_, ?_⟩
    · rw [loadBlock, if_neg hnew, if_neg h0, hk]
      simp only [Outcome.ok_bind]
      rw [h4]
      rfl
    · rw [List.forall₂_map_left_iff, List.range_eq_range']
      exact h5

theorem loadBlocks_ok {g : Genesis} {ids : List Nat} (hn : ids.Nodup) (bs : List ElemBlock)
    (hnodes : ∀ b ∈ bs, ∀ e < b.numElem, ∀ i < b.nodesPerElem, ∃ c, HasNode b e i c ∧ c < g.coords.length)
    (hfit : ∀ b ∈ bs, ∀ e < b.numElem, Fit g b e) :
    ∀ (done rest : List PointData) (bl : List (String × List Nat)),
      (bl.map Prod.fst ++ bs.map ElemBlock.title).Nodup → (elements bs).length ≤ rest.length →
      done.length + rest.length = ids.length →
      ∃ new nb, bs.foldlM (loadBlock g ids) ⟨done.length, done ++ rest, bl⟩ =
          .ok ⟨done.length + (elements bs).length, done ++ new ++ rest.drop (elements bs).length, bl ++ nb⟩ ∧
        List.Forall₂ (fun (t : ElemBlock × Nat) p => Represents g t.1 t.2 p) (elements bs) new ∧
        List.Forall₂ (fun (b : ElemBlock) (e : String × List Nat) =>
          e.1 = b.title ∧ e.2.length = b.numElem) bs nb ∧
        (nb.map Prod.snd).flatten = (ids.drop done.length).take (elements bs).length := by
  induction bs with
  | nil =>
    intro done rest bl _ _ _
    exact ⟨[], [], by simp [elements], .nil, .nil, by simp [elements]⟩
  | cons b bs ih =>
    intro done rest bl ht h2 h3
    rw [elements_length_cons] at h2
    have hnew : b.title ∉ bl.map Prod.fst := by
      intro hm
      rw [List.map_cons, List.nodup_append] at ht
      exact ht.2.2 _ hm _ List.mem_cons_self rfl
    obtain ⟨new1, e1, f1⟩ := loadBlock_ok hn (hnodes b List.mem_cons_self) (hfit b List.mem_cons_self) done rest bl
      hnew (by omega) h3
    have hlen1 : new1.length = b.numElem := by
      rw [← f1.length_eq, List.length_map, List.length_range]
    obtain ⟨new2, nb, e2, f2, f3, f4⟩ := ih (fun c hc => hnodes c (List.mem_cons_of_mem _ hc))
      (fun c hc => hfit c (List.mem_cons_of_mem _ hc)) (done ++ new1) (rest.drop b.numElem)
      (bl ++ [(b.title, (ids.drop done.length).take b.numElem)])
      (by
        rw [List.map_append, List.append_assoc]
        exact ht)
      (by rw [List.length_drop]; omega)
      (by rw [List.length_append, List.length_drop, hlen1]; omega)
    refine ⟨new1 ++ new2, (b.title, (ids.drop done.length).take b.numElem) :: nb, ?_, ?_, ?_, ?_⟩
    · rw [List.foldlM_cons, e1]
      simp only [Outcome.ok_bind]
      rw [List.length_append, hlen1] at e2
      rw [e2, elements_length_cons, List.drop_drop]
      simp only [List.append_assoc, List.singleton_append, Nat.add_assoc]
    · rw [elements_cons]
      exact List.rel_append f1 f2
    · refine .cons ⟨rfl, ?_⟩ f3
      rw [List.length_take, List.length_drop]
      omega
    · rw [List.map_cons, List.flatten_cons, f4, elements_length_cons, List.length_append, hlen1,
        List.take_add, List.drop_drop]

theorem titles_eq {bs : List ElemBlock} {nb : List (String × List Nat)}
    (h : List.Forall₂ (fun (b : ElemBlock) (e : String × List Nat) =>
      e.1 = b.title ∧ e.2.length = b.numElem) bs nb) : nb.map Prod.fst = bs.map ElemBlock.title := by
  induction h with
  | nil => rfl
  | cons h _ ih => rw [List.map_cons, List.map_cons, h.1, ih]

theorem foldlM_prefix {α β : Type} {f : β → α → Outcome β} {l : List α} :
    ∀ {b b' : β} (_ : l.foldlM f b = .ok b') (l' : List α), (l ++ l').foldlM f b = l'.foldlM f b' := by
  induction l with
  | nil =>
    intro b b' h l'
    injection h with h
    rw [h]
    rfl
  | cons a l ih =>
    intro b b' h l'
    rw [List.foldlM_cons] at h
    obtain ⟨c, h1, h2⟩ := Outcome.bind_eq_ok.mp h
    rw [List.cons_append, List.foldlM_cons, h1]
    exact ih h2 l'

end Verif.Mesh
