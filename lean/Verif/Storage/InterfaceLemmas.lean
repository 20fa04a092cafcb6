import Verif.Storage.InterfaceSpec
import Mathlib.Data.Finset.Card
import Mathlib.Data.List.Nodup

noncomputable section

namespace Verif.Storage

open Verif Verif.Mech
open scoped Classical

theorem matching_eq (own : List Nat) {other : List Nat} (h : other.Nodup) :
    matching own other = own.filter fun a => a ∈ other := by
  induction own with
  | nil => rfl
  | cons a own ih =>
    have e : ((other.filter fun b => a = b).map fun _ => a) = if a ∈ other then [a] else [] := by
      have e1 : (other.filter fun b => a = b) = other.filter fun b => b = a := by
        congr; funext b; simp [eq_comm]
      have e2 : (other.filter fun b => b = a) = List.replicate (other.count a) a := by
        rw [← List.filter_eq]
      rw [e1, e2, h.count]
      split <;> simp
    rw [matching] at ih ⊢
    rw [List.flatMap_cons, ih, e]
    by_cases ha : a ∈ other
    · rw [if_pos ha, List.filter_cons_of_pos (by simpa using ha)]; rfl
    · rw [if_neg ha, List.filter_cons_of_neg (by simpa using ha)]; rfl

theorem two_lt_iff {l : List Nat} (h : l.Nodup) :
    2 < l.length ↔ ∃ a ∈ l, ∃ b ∈ l, ∃ c ∈ l, a ≠ b ∧ a ≠ c ∧ b ≠ c := by
  rw [← List.toFinset_card_of_nodup h, Finset.two_lt_card]
  simp only [List.mem_toFinset]

/-- `HexFace` in terms of the table of faces. -/
def HexFaceL (e n : Elem) : Prop :=
  ∃ f ∈ hexFaces, ∃ a ∈ f, ∃ b ∈ f, ∃ c ∈ f, a ≠ b ∧ a ≠ c ∧ b ≠ c ∧
    ∀ k ∈ [a, b, c], ∃ v ∈ n.nodes, e.nodes[k]? = some v

instance (axis : Fin 3) (value : Bool) (k : Fin 8) : Decidable (OnSide axis value k) :=
  inferInstanceAs (Decidable (_ = _))

theorem side_listed : ∀ (axis : Fin 3) (value : Bool), ∃ f ∈ hexFaces, ∀ k : Fin 8,
    OnSide axis value k → k.val ∈ f := by decide

theorem listed_lt : ∀ f ∈ hexFaces, ∀ k ∈ f, k < 8 := by decide

theorem listed_side : ∀ f ∈ hexFaces, ∃ (axis : Fin 3) (value : Bool), ∀ k : Fin 8,
    k.val ∈ f ↔ OnSide axis value k := by decide

theorem hexFace_iff (e n : Elem) : HexFace e n ↔ HexFaceL e n := by
  constructor
  · rintro ⟨axis, value, a, b, c, ha, hb, hc, h1, h2, h3, h⟩
    obtain ⟨f, hf, hk⟩ := side_listed axis value
    refine ⟨f, hf, a, hk a ha, b, hk b hb, c, hk c hc, ?_, ?_, ?_, ?_⟩
    · intro h; exact h1 (Fin.ext h)
    · intro h; exact h2 (Fin.ext h)
    · intro h; exact h3 (Fin.ext h)
    · intro k hk
      simp only [List.mem_cons, List.not_mem_nil, or_false] at hk
      rcases hk with rfl | rfl | rfl
      · exact h a (by simp)
      · exact h b (by simp)
      · exact h c (by simp)
  · rintro ⟨f, hf, a, ha, b, hb, c, hc, h1, h2, h3, h⟩
    obtain ⟨axis, value, hk⟩ := listed_side f hf
    refine ⟨axis, value, ⟨a, listed_lt f hf a ha⟩, ⟨b, listed_lt f hf b hb⟩,
      ⟨c, listed_lt f hf c hc⟩, (hk _).1 ha, (hk _).1 hb, (hk _).1 hc, ?_, ?_, ?_, ?_⟩
    · intro h; exact h1 (Fin.mk.inj h)
    · intro h; exact h2 (Fin.mk.inj h)
    · intro h; exact h3 (Fin.mk.inj h)
    · intro k hk
      simp only [List.mem_cons, List.not_mem_nil, or_false] at hk
      rcases hk with rfl | rfl | rfl
      · exact h a (by simp)
      · exact h b (by simp)
      · exact h c (by simp)

theorem hexFaces_nodup {f : List Nat} (hf : f ∈ hexFaces) : f.Nodup := by
  revert f; decide

theorem getElem?_inj {l : List Nat} (h : l.Nodup) {i j v : Nat} (hi : l[i]? = some v)
    (hj : l[j]? = some v) : i = j := by
  obtain ⟨h1, e1⟩ := List.getElem?_eq_some_iff.1 hi
  obtain ⟨h2, e2⟩ := List.getElem?_eq_some_iff.1 hj
  exact (h.getElem_inj_iff (hi := h1) (hj := h2)).1 (e1.trans e2.symm)

theorem corners_nodup {own f : List Nat} (h : own.Nodup) (hf : f.Nodup) :
    (corners own f).Nodup := by
  refine List.Nodup.filterMap ?_ hf
  intro a a' v h1 h2
  exact getElem?_inj h h1 h2

theorem matching_hex {own other f : List Nat} (ho : own.Nodup) (hother : other.Nodup)
    (hf : f.Nodup) :
    2 < (matching (corners own f) other).length ↔
      ∃ a ∈ f, ∃ b ∈ f, ∃ c ∈ f, a ≠ b ∧ a ≠ c ∧ b ≠ c ∧
        ∀ k ∈ [a, b, c], ∃ v ∈ other, own[k]? = some v := by
  rw [matching_eq _ hother, two_lt_iff ((corners_nodup ho hf).filter _)]
  have hm : ∀ v, v ∈ (corners own f).filter (fun a => a ∈ other) ↔
      (∃ k ∈ f, own[k]? = some v) ∧ v ∈ other := by
    intro v
    simp [corners, List.mem_filter, List.mem_filterMap]
  constructor
  · rintro ⟨a, ha, b, hb, c, hc, hab, hac, hbc⟩
    obtain ⟨⟨i, hi, ei⟩, ha'⟩ := (hm a).1 ha
    obtain ⟨⟨j, hj, ej⟩, hb'⟩ := (hm b).1 hb
    obtain ⟨⟨k, hk, ek⟩, hc'⟩ := (hm c).1 hc
    refine ⟨i, hi, j, hj, k, hk, ?_, ?_, ?_, ?_⟩
    · rintro rfl; rw [ei] at ej; exact hab (Option.some.inj ej)
    · rintro rfl; rw [ei] at ek; exact hac (Option.some.inj ek)
    · rintro rfl; rw [ej] at ek; exact hbc (Option.some.inj ek)
    · intro l hl
      simp only [List.mem_cons, List.not_mem_nil, or_false] at hl
      rcases hl with rfl | rfl | rfl
      · exact ⟨a, ha', ei⟩
      · exact ⟨b, hb', ej⟩
      · exact ⟨c, hc', ek⟩
  · rintro ⟨i, hi, j, hj, k, hk, hij, hik, hjk, hall⟩
    obtain ⟨a, ha, ei⟩ := hall i (by simp)
    obtain ⟨b, hb, ej⟩ := hall j (by simp)
    obtain ⟨c, hc, ek⟩ := hall k (by simp)
    refine ⟨a, (hm a).2 ⟨⟨i, hi, ei⟩, ha⟩, b, (hm b).2 ⟨⟨j, hj, ej⟩, hb⟩, c,
      (hm c).2 ⟨⟨k, hk, ek⟩, hc⟩, ?_, ?_, ?_⟩
    · rintro rfl; exact hij (getElem?_inj ho ei ej)
    · rintro rfl; exact hik (getElem?_inj ho ei ek)
    · rintro rfl; exact hjk (getElem?_inj ho ej ek)

theorem hexShared_some {own other : List Nat} {fs : List (List Nat)} {r : Nat × List Nat}
    (h : hexShared own other fs = some r) : ∃ f ∈ fs, r.2 = corners own f ∧
      r.1 = (matching (corners own f) other).length ∧ 2 < r.1 := by
  induction fs with
  | nil => simp [hexShared] at h
  | cons f fs ih =>
    rw [hexShared] at h
    split at h
    · next hc =>
      cases h
      exact ⟨f, by simp, rfl, rfl, hc⟩
    · obtain ⟨g, hg, h'⟩ := ih h
      exact ⟨g, by simp [hg], h'⟩

theorem hexShared_none {own other : List Nat} {fs : List (List Nat)}
    (h : hexShared own other fs = none) :
    ∀ f ∈ fs, ¬ 2 < (matching (corners own f) other).length := by
  induction fs with
  | nil => simp
  | cons f fs ih =>
    rw [hexShared] at h
    split at h
    · cases h
    · next hc =>
      intro g hg
      rcases List.mem_cons.1 hg with rfl | hg
      · exact hc
      · exact ih h g hg

/-- What the code finds for a pair of hexahedra. -/
theorem sharedFace_hex {e n : Elem} (he : e.nodes.length = 8 ∧ e.nodes.Nodup)
    (hn : n.nodes.length = 8 ∧ n.nodes.Nodup) :
    (∃ r, sharedFace e n = .ok (some r) ∧ HexFaceL e n ∧ ∃ f ∈ hexFaces, r.2 = corners e.nodes f ∧
      r.1 = ((corners e.nodes f).filter fun a => a ∈ n.nodes).length ∧ 2 < r.1) ∨
    (sharedFace e n = .ok none ∧ ¬ HexFaceL e n) := by
  rw [sharedFace, if_neg (by omega), if_pos he.1, List.take_of_length_le (by omega)]
  rcases h : hexShared e.nodes n.nodes hexFaces with _ | r
  · right
    refine ⟨rfl, ?_⟩
    rintro ⟨f, hf, h'⟩
    exact hexShared_none h f hf ((matching_hex he.2 hn.2 (hexFaces_nodup hf)).2 h')
  · left
    obtain ⟨f, hf, e1, e2, e3⟩ := hexShared_some h
    refine ⟨r, rfl, ⟨f, hf, ?_⟩, f, hf, e1, ?_, e3⟩
    · rw [e2] at e3
      exact (matching_hex he.2 hn.2 (hexFaces_nodup hf)).1 e3
    · rw [e2, matching_eq _ hn.2]

/-- What the code finds for a pair of different tetrahedra. -/
theorem sharedFace_tet {e n : Elem} (he : e.nodes.length = 4 ∧ e.nodes.Nodup)
    (hn : n.nodes.length = 4 ∧ n.nodes.Nodup) :
    (∃ r, sharedFace e n = .ok (some r) ∧ TetFace e n) ∨
    (sharedFace e n = .ok none ∧ ¬ TetFace e n) := by
  have hle : (matching e.nodes n.nodes).length ≤ 4 := by
    rw [matching_eq _ hn.2]
    exact (List.length_filter_le _ _).trans he.1.le
  have hiff : 2 < (matching e.nodes n.nodes).length ↔ TetFace e n := by
    rw [matching_eq _ hn.2, two_lt_iff (he.2.filter _)]
    simp only [List.mem_filter, decide_eq_true_eq]
    constructor
    · rintro ⟨a, ha, b, hb, c, hc, h1, h2, h3⟩
      refine ⟨a, b, c, h1, h2, h3, ?_⟩
      intro v hv
      simp only [List.mem_cons, List.not_mem_nil, or_false] at hv
      rcases hv with rfl | rfl | rfl
      · exact ha
      · exact hb
      · exact hc
    · rintro ⟨a, b, c, h1, h2, h3, h⟩
      exact ⟨a, h a (by simp), b, h b (by simp), c, h c (by simp), h1, h2, h3⟩
  rw [sharedFace, if_neg (by omega), if_neg (by omega), he.1, List.take_of_length_le (by omega),
    otherShared, if_neg (by omega)]
  by_cases h : 2 < (matching e.nodes n.nodes).length
  · rw [if_pos h]
    exact Or.inl ⟨_, rfl, hiff.1 h⟩
  · rw [if_neg h]
    exact Or.inr ⟨rfl, fun h' => h (hiff.2 h')⟩

theorem corners_map {own : List Nat} : ∀ {f : List Nat}, (∀ k ∈ f, k < own.length) →
    f.map (fun k => own[k]?) = (corners own f).map some
  | [], _ => rfl
  | k :: f, h => by
      have hk := List.getElem?_eq_getElem (h k (by simp))
      rw [List.map_cons, corners, List.filterMap_cons_some hk, List.map_cons, hk,
        corners_map fun k hk => h k (by simp [hk])]
      rfl

theorem elementInterfaces_nodes {e : Elem} (he : e.nodes.length = 8 ∧ e.nodes.Nodup)
    {ns : List Elem} (hns : ∀ n ∈ ns, n.nodes.length = 8 ∧ n.nodes.Nodup) {js : List Interface}
    (hj : elementInterfaces e ns = .ok js) : ∀ i ∈ js, ∃ n ∈ ns,
      i.left = e.gid ∧ i.right = n.gid ∧ ∃ f ∈ hexFaces,
        f.map (fun k => e.nodes[k]?) = i.nodes.map some ∧
        i.count = (i.nodes.filter fun v => v ∈ n.nodes).length ∧ 2 < i.count := by
  induction ns generalizing js with
  | nil => cases hj; simp
  | cons n ns ih =>
    rw [elementInterfaces] at hj
    obtain ⟨p, hp, hj⟩ := Outcome.bind_eq_ok.1 hj
    obtain ⟨q, hq, hj⟩ := Outcome.bind_eq_ok.1 hj
    cases hj
    intro i him
    rcases List.mem_append.1 him with him | him
    · refine ⟨n, by simp, ?_⟩
      rw [pairInterface] at hp
      rcases sharedFace_hex he (hns n (by simp)) with ⟨r, h1, -, f, hf, e1, e2, e3⟩ | ⟨h1, -⟩
      · rw [h1, Outcome.ok_bind] at hp
        dsimp only at hp
        split at hp
        · cases hp
          simp only [List.mem_cons, List.not_mem_nil, or_false] at him
          subst him
          have hlt : ∀ f ∈ hexFaces, ∀ k ∈ f, k < 8 := by decide
          refine ⟨rfl, rfl, f, hf, ?_, ?_, e3⟩
          · dsimp only
            rw [e1, corners_map]
            rw [he.1]
            exact hlt f hf
          · dsimp only
            rw [e2, e1]
        · cases hp; simp at him
      · rw [h1, Outcome.ok_bind] at hp
        cases hp; simp at him
    · obtain ⟨m, hm, h'⟩ := ih (fun m hm => hns m (by simp [hm])) hq i him
      exact ⟨m, by simp [hm], h'⟩

/-- A criterion that decides whether the code finds a shared face. -/
def Decides (Face : Elem → Elem → Prop) (e n : Elem) : Prop :=
  (∃ r, sharedFace e n = .ok (some r) ∧ Face e n) ∨ (sharedFace e n = .ok none ∧ ¬ Face e n)

theorem elementInterfaces_eq {Face : Elem → Elem → Prop} {e : Elem} {ns : List Elem}
    (h : ∀ n ∈ ns, Decides Face e n) : ∃ is, elementInterfaces e ns = .ok is ∧
      pairs is = (ns.filter fun n => Face e n ∧ e.gid < n.gid).map fun n => (e.gid, n.gid) := by
  induction ns with
  | nil => exact ⟨[], rfl, rfl⟩
  | cons n ns ih =>
    obtain ⟨is, h1, h2⟩ := ih fun m hm => h m (by simp [hm])
    rw [elementInterfaces, pairInterface]
    rcases h n (by simp) with ⟨r, hr, hf⟩ | ⟨hr, hf⟩
    · rw [hr]
      simp only [Outcome.ok_bind]
      by_cases hlt : e.gid < n.gid
      · rw [if_pos hlt, Outcome.ok_bind, h1, Outcome.ok_bind]
        refine ⟨_, rfl, ?_⟩
        rw [List.filter_cons_of_pos (by simp [hf, hlt]), List.map_cons, ← h2]
        rfl
      · rw [if_neg hlt, Outcome.ok_bind, h1, Outcome.ok_bind]
        refine ⟨_, rfl, ?_⟩
        rw [List.filter_cons_of_neg (by simp [hlt]), ← h2]
        rfl
    · rw [hr]
      simp only [Outcome.ok_bind]
      rw [h1, Outcome.ok_bind]
      refine ⟨_, rfl, ?_⟩
      rw [List.filter_cons_of_neg (by simp [hf]), ← h2]
      rfl

theorem constructInterfaces_eq {Face : Elem → Elem → Prop} {mesh : List Bonded}
    (h : ∀ b ∈ mesh, ∀ n ∈ b.neighbors, Decides Face b.self n) :
    ∃ is, constructInterfaces mesh = .ok is ∧
      pairs is = mesh.flatMap fun b => (b.neighbors.filter fun n =>
        Face b.self n ∧ b.self.gid < n.gid).map fun n => (b.self.gid, n.gid) := by
  induction mesh with
  | nil => exact ⟨[], rfl, rfl⟩
  | cons b mesh ih =>
    obtain ⟨is, h1, h2⟩ := ih fun c hc => h c (by simp [hc])
    obtain ⟨js, h3, h4⟩ := elementInterfaces_eq (h b (by simp))
    rw [constructInterfaces, h3, Outcome.ok_bind, h1, Outcome.ok_bind]
    refine ⟨_, rfl, ?_⟩
    rw [List.flatMap_cons, ← h2, ← h4, pairs, List.map_append]
    rfl

/-- Pairs found are exactly those with a face in common, each once. -/
theorem pairs_spec {Face : Elem → Elem → Prop} {mesh : List Bonded} (hd : Distinct mesh)
    (h : ∀ b ∈ mesh, ∀ n ∈ b.neighbors, Decides Face b.self n) :
    ∃ is, constructInterfaces mesh = .ok is ∧ (pairs is).Nodup ∧
      ∀ l r, (l, r) ∈ pairs is ↔ ∃ b ∈ mesh, ∃ n ∈ b.neighbors,
        b.self.gid = l ∧ n.gid = r ∧ l < r ∧ Face b.self n := by
  obtain ⟨is, h1, h2⟩ := constructInterfaces_eq h
  refine ⟨is, h1, ?_, ?_⟩
  · rw [h2, List.nodup_flatMap]
    constructor
    · intro b hb
      have hn := hd.2 b hb
      have hs : ((b.neighbors.filter fun n => Face b.self n ∧ b.self.gid < n.gid).map
          Elem.gid).Nodup := hn.sublist (List.filter_sublist.map _)
      have : (b.neighbors.filter fun n => Face b.self n ∧ b.self.gid < n.gid).map
          (fun n => (b.self.gid, n.gid)) =
          ((b.neighbors.filter fun n => Face b.self n ∧ b.self.gid < n.gid).map Elem.gid).map
            fun g => (b.self.gid, g) := by
        rw [List.map_map]; rfl
      rw [this]
      exact hs.map fun x y e => (Prod.mk.inj e).2
    · have := List.pairwise_map.1 hd.1
      refine this.imp ?_
      intro b c hne
      rw [Function.onFun, List.disjoint_left]
      intro p hp hq
      obtain ⟨n, -, e1⟩ := List.mem_map.1 hp
      obtain ⟨m, -, e2⟩ := List.mem_map.1 hq
      rw [← e2] at e1
      exact hne (Prod.mk.inj e1).1
  · intro l r
    rw [h2]
    simp only [List.mem_flatMap, List.mem_map, List.mem_filter, decide_eq_true_eq, Prod.mk.injEq]
    constructor
    · rintro ⟨b, hb, n, ⟨hn, hf, hlt⟩, rfl, rfl⟩
      exact ⟨b, hb, n, hn, rfl, rfl, hlt, hf⟩
    · rintro ⟨b, hb, n, hn, rfl, rfl, hlt, hf⟩
      exact ⟨b, hb, n, ⟨hn, hf, hlt⟩, rfl, rfl⟩

/-! ### Apertures -/

theorem zip_filter (is : List Interface) (f : Interface → ℝ) (n : Nat) :
    (((is.zip (is.map f)).filter fun p => p.1.count = n).map fun p => p.2) =
      (is.filter fun i => i.count = n).map f := by
  induction is with
  | nil => rfl
  | cons i is ih =>
    rw [List.map_cons, List.zip_cons_cons]
    by_cases h : i.count = n
    · rw [List.filter_cons_of_pos (by simpa using h), List.filter_cons_of_pos (by simpa using h),
        List.map_cons, List.map_cons, ih]
    · rw [List.filter_cons_of_neg (by simpa using h), List.filter_cons_of_neg (by simpa using h),
        ih]

theorem outputs_from {is : List Interface} (hc : ∀ i ∈ is, i.count = 4 ∨ i.count = 3)
    (x : Nat → V3) (f : Interface → ℝ) (ys : List (Nat → V3)) :
    ∃ ws, Apertures.outputs { interfaces := is, values := is.map f } x ys = .ok ws ∧
      ws.length = ys.length ∧
      (∀ w, ws[0]? = some w → w = ((is.filter fun i => i.count = 4).map f,
        (is.filter fun i => i.count = 3).map f)) ∧
      ∀ (k : Nat) (y : Nat → V3) (w : Written), ys[k]? = some y → ws[k + 1]? = some w →
        w = (openings is 4 x y, openings is 3 x y) := by
  induction ys generalizing f with
  | nil => exact ⟨[], rfl, rfl, by simp, by simp⟩
  | cons y ys ih =>
    obtain ⟨ws, h1, h2, h3, h4⟩ := ih (opening x y)
    have hno : ¬ ∃ i ∈ is, i.count ≠ 4 ∧ i.count ≠ 3 := by
      rintro ⟨i, hi, h⟩
      rcases hc i hi with e | e
      · exact h.1 e
      · exact h.2 e
    rw [Apertures.outputs, Apertures.write, if_neg hno, Outcome.ok_bind]
    dsimp only
    rw [h1, Outcome.ok_bind]
    refine ⟨_, rfl, by simp [h2], ?_, ?_⟩
    · intro w hw
      rw [List.getElem?_cons_zero] at hw
      cases hw
      rw [Apertures.block, Apertures.block]
      dsimp only
      rw [zip_filter, zip_filter]
    · intro k y' w hy hw
      rw [List.getElem?_cons_succ] at hw
      rcases k with _ | k
      · rw [List.getElem?_cons_zero] at hy
        cases hy
        rw [h3 w hw]
        rfl
      · rw [List.getElem?_cons_succ] at hy
        exact h4 k y' w hy hw

end Verif.Storage
