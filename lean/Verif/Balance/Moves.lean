import Verif.Balance.Lemmas
import Mathlib.Data.Multiset.Bind
import Mathlib.Data.List.Forall2

/-!
# Lemmas on where the points go
-/

namespace Verif.Balance

open Verif Verif.Neigh

/-- The grid after packing. -/
def marked (g : GridData) (ex : List Nat) : GridData :=
  { g with flags := mark g.numPoints ex, numExport := ex.length }

theorem marked_nil {g : GridData} {pts : List Pt} (h : Holds g pts) : marked g [] = g := by
  obtain ⟨h1, _, _, _, _, _, _, h2, h3⟩ := h
  have e1 : mark g.numPoints [] = g.flags := by rw [mark, List.foldl_nil, h1, h2]
  have e2 : ([] : List Nat).length = g.numExport := by rw [h3]; rfl
  rw [marked, e1, e2]

theorem unpack_ok {g : GridData} {pts arr : List Pt} (h : Holds g pts) {ex idx buf : List Nat} (hn : ex.Nodup)
    (hv : ∀ k ∈ ex, k < pts.length) (hs : List.Forall₂ (Stands g.dim buf) arr idx) :
    ∃ g', unpack (marked g ex) (arr.map Pt.gid) idx buf = .ok g' ∧ Holds g' (staying pts ex ++ arr) ∧
      g'.unPack = false ∧ g'.dim = g.dim ∧ g'.size = g'.nbs.length ∧
      g'.nbs = encode ((staying pts ex ++ arr).map Pt.nbs) ∧
      g'.ptrs = offsets ((staying pts ex ++ arr).map Pt.nbs) := by
  have hlen : ex.length ≤ pts.length := by
    have hsub : ex ⊆ List.range pts.length := fun k hk => List.mem_range.mpr (hv k hk)
    have := (hn.subperm hsub).length_le
    simpa using this
  have hx : ∀ a ∈ staying pts ex ++ arr, a.x.length = g.dim := by
    intro a ha
    rcases List.mem_append.mp ha with ha | ha
    · exact h.2.2.1 a (staying_mem ha)
    · obtain ⟨hl, hf⟩ := List.forall₂_iff_get.mp hs
      obtain ⟨k, hk, rfl⟩ := List.mem_iff_getElem.mp ha
      exact (hf k hk (by rw [← hl]; exact hk)).1
  obtain ⟨g', h1, h2, h3, h4, h5⟩ := assemble_ok g.dim (staying pts ex ++ arr) hx
  refine ⟨g', ?_, h2, h3, h4, h5⟩
  have hkeep : keepPoints (marked g ex) (marked g ex).numPoints 0 = .ok (staying pts ex) := by
    have := keepPoints_ok h (f := mark g.numPoints ex) (e := ex.length) (ex := ex)
      (fun k hk => mark_get _ _ _ (by rw [h.1]; exact hk)) g.numPoints 0 (by rw [h.1]; omega)
    rw [← List.range_eq_range', h.1] at this
    rw [marked, staying]
    simp only [h.1] at this ⊢
    exact this
  rw [unpack, if_neg (by simp only [marked]; rw [h.1]; omega), hkeep]
  simp only [Outcome.ok_bind]
  have hd : (marked g ex).dim = g.dim := rfl
  rw [hd, newSize_ok hs]; simp only [Outcome.ok_bind]
  rw [importPoints_ok hs]; simp only [Outcome.ok_bind]
  have e1 : (marked g ex).numPoints - (marked g ex).numExport + (arr.map Pt.gid).length =
      (staying pts ex ++ arr).length := by
    simp only [marked]
    rw [List.length_append, staying_length pts ex hn hv, h.1, List.length_map]
  rw [e1, ← List.sum_append, ← List.map_append]
  exact h1

theorem packOn_ok {P : Plan} {p : Nat} {g : GridData} {pts : List Pt} (h : Holds g pts)
    (hvalid : ∀ e ∈ P.exports p, e.1 < pts.length)
    (hroom : ∀ (j : Nat) e i a, (P.exports p)[j]? = some e → (P.sendIdx p)[j]? = some i →
      pts[e.1]? = some a → i + width g.dim a ≤ (P.sendBuf p).length)
    (hapart : ∀ (j j' : Nat) e i i' a, j < j' → (P.exports p)[j]? = some e → (P.sendIdx p)[j]? = some i →
      (P.sendIdx p)[j']? = some i' → pts[e.1]? = some a → i + width g.dim a ≤ i') :
    ∃ buf, packOn P p g = .ok (marked g ((P.exports p).map Prod.fst), buf) ∧
      ∀ (j : Nat) e i a, (P.exports p)[j]? = some e → (P.sendIdx p)[j]? = some i → pts[e.1]? = some a →
        slice buf i (width g.dim a) = .ok (pointWords a) := by
  by_cases he : P.exports p = []
  · refine ⟨P.sendBuf p, ?_, ?_⟩
    · rw [packOn, if_pos he, he, List.map_nil, marked_nil h]
    · intro j e i a hj; rw [he] at hj; simp at hj
  · have hzip : ∀ (j : Nat) (z : Nat × Nat), (((P.exports p).map Prod.fst).zip (P.sendIdx p))[j]? = some z →
        ∃ e, (P.exports p)[j]? = some e ∧ z.1 = e.1 ∧ (P.sendIdx p)[j]? = some z.2 := by
      intro j z hz
      rw [List.getElem?_zip_eq_some, List.getElem?_map] at hz
      obtain ⟨h1, h2⟩ := hz
      cases hj : (P.exports p)[j]? with
      | none => rw [hj] at h1; cases h1
      | some e =>
        rw [hj] at h1
        injection h1 with h1
        exact ⟨e, rfl, h1.symm, h2⟩
    obtain ⟨buf, h1, _, h2, _⟩ := packLoop_ok h (((P.exports p).map Prod.fst).zip (P.sendIdx p)) (P.sendBuf p)
      (by
        intro z hz
        obtain ⟨j, hj⟩ := List.mem_iff_getElem?.mp hz
        obtain ⟨e, he, hze, hi⟩ := hzip j z hj
        have hlt := hvalid e (List.mem_of_getElem? he)
        have ha := List.getElem?_eq_getElem hlt
        exact ⟨_, by rw [hze]; exact ha, hroom j e z.2 _ he hi ha⟩)
      (by
        rw [List.pairwise_iff_getElem]
        intro j j' hj hj' hlt a ha
        obtain ⟨e, he, hze, hi⟩ := hzip j _ (List.getElem?_eq_getElem hj)
        obtain ⟨e', he', hze', hi'⟩ := hzip j' _ (List.getElem?_eq_getElem hj')
        rw [hze] at ha
        exact hapart j j' e _ _ a hlt he hi hi' ha)
    refine ⟨buf, ?_, ?_⟩
    · rw [packOn, if_neg he, pack, h1]; rfl
    · intro j e i a hj hi ha
      exact h2 (e.1, i) (List.mem_iff_getElem?.mpr ⟨j, by
        rw [List.getElem?_zip_eq_some, List.getElem?_map, hj]; exact ⟨rfl, hi⟩⟩) a ha

theorem stands_all {dim : Nat} {buf : List Nat} {pts : Nat → List Pt} : ∀ {os : List (Nat × Nat)} {idx : List Nat},
    idx.length = os.length → (∀ (k : Nat) o i, os[k]? = some o → idx[k]? = some i →
      ∃ a, (pts o.1)[o.2]? = some a ∧ Stands dim buf a i) → List.Forall₂ (Stands dim buf) (arriving pts os) idx
  | [], [], _, _ => .nil
  | [], _ :: _, h, _ => by simp at h
  | _ :: _, [], h, _ => by simp at h
  | o :: os, i :: idx, h, hk => by
    obtain ⟨a, ha, hs⟩ := hk 0 o i rfl rfl
    rw [arriving, List.filterMap_cons, ha]
    exact .cons hs (stands_all (by simpa using h) fun k o i h1 h2 => hk (k + 1) o i
      (by rw [List.getElem?_cons_succ]; exact h1) (by rw [List.getElem?_cons_succ]; exact h2))

/-! ### No point is lost -/

theorem spread_one (e : Nat × Nat) : ∀ n, e.2 < n →
    ((List.range n).flatMap fun q => if e.2 = q then [e] else []) = [e]
  | 0, h => by omega
  | n + 1, h => by
    rw [List.range_succ, List.flatMap_append]
    by_cases hn : e.2 = n
    · have : ((List.range n).flatMap fun q => if e.2 = q then [e] else []) = [] := by
        rw [List.flatMap_eq_nil_iff]
        intro q hq
        rw [if_neg]
        have := List.mem_range.mp hq
        omega
      rw [this]; simp [hn]
    · rw [spread_one e n (by omega)]; simp [hn]

theorem spread (n : Nat) (l : List (Nat × Nat)) (h : ∀ e ∈ l, e.2 < n) :
    ((List.range n).flatMap fun q => l.filter fun e => e.2 = q).Perm l := by
  induction l with
  | nil => simp
  | cons e l ih =>
    have h1 : ((List.range n).flatMap fun q => (e :: l).filter fun e => e.2 = q) =
        (List.range n).flatMap fun q => (if e.2 = q then [e] else []) ++ l.filter fun e => e.2 = q := by
      congr 1
      funext q
      by_cases hq : e.2 = q
      · simp [hq]
      · simp [hq]
    rw [h1]
    refine (List.flatMap_append_perm _ _ _).symm.trans ?_
    rw [spread_one e n (h e (by simp))]
    exact List.Perm.cons e (ih fun x hx => h x (List.mem_cons_of_mem _ hx))

theorem flatMap_comm (l m : List Nat) (f : Nat → Nat → List Pt) :
    (l.flatMap fun a => m.flatMap fun b => f a b).Perm (m.flatMap fun b => l.flatMap fun a => f a b) := by
  rw [← Multiset.coe_eq_coe]
  have := Multiset.bind_bind (l : Multiset Nat) (m : Multiset Nat) (f := fun a b => (f a b : Multiset Pt))
  simpa [Multiset.coe_bind] using this

theorem flatMap_perm {l : List Nat} {f g : Nat → List Pt} (h : ∀ a ∈ l, (f a).Perm (g a)) :
    (l.flatMap f).Perm (l.flatMap g) := by
  induction l with
  | nil => simp
  | cons a l ih =>
    rw [List.flatMap_cons, List.flatMap_cons]
    exact (h a (by simp)).append (ih fun b hb => h b (List.mem_cons_of_mem _ hb))

theorem range_filterMap (pts : List Pt) : ((List.range pts.length).filterMap fun k => pts[k]?) = pts := by
  have h : ∀ (l : List Pt) (s : Nat) (pre : List Pt), pre.length = s →
      ((List.range' s l.length).filterMap fun k => (pre ++ l)[k]?) = l := by
    intro l
    induction l with
    | nil => intro s pre _; rfl
    | cons a l ih =>
      intro s pre hs
      rw [List.length_cons, List.range'_succ, List.filterMap_cons]
      have h1 : (pre ++ a :: l)[s]? = some a := by rw [← hs]; simp
      rw [h1]
      simp only
      have := ih (s + 1) (pre ++ [a]) (by simp [hs])
      rw [List.append_assoc] at this
      rw [show [a] ++ l = a :: l from rfl] at this
      rw [this]
  have := h pts 0 [] rfl
  rwa [List.nil_append, ← List.range_eq_range'] at this

theorem stay_or_go (pts : List Pt) (ex : List Nat) (hn : ex.Nodup) (hv : ∀ k ∈ ex, k < pts.length) :
    (staying pts ex ++ ex.filterMap fun k => pts[k]?).Perm pts := by
  have h1 : (((List.range pts.length).filter fun k => k ∉ ex) ++ ex).Perm (List.range pts.length) := by
    rw [List.perm_ext_iff_of_nodup]
    · intro k
      simp only [List.mem_append, List.mem_filter, List.mem_range, decide_eq_true_eq]
      constructor
      · rintro (h | h)
        · exact h.1
        · exact hv k h
      · intro h
        by_cases hk : k ∈ ex
        · exact Or.inr hk
        · exact Or.inl ⟨h, hk⟩
    · rw [List.nodup_append]
      refine ⟨List.nodup_range.filter _, hn, ?_⟩
      intro a ha b hb hab
      subst hab
      simp only [List.mem_filter, decide_eq_true_eq] at ha
      exact ha.2 hb
    · exact List.nodup_range
  have h2 := h1.filterMap fun k => pts[k]?
  rw [List.filterMap_append, range_filterMap] at h2
  exact h2

end Verif.Balance
