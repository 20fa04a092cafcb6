import Verif.Quick.Spec
import Verif.Balance.Props
import Verif.Neigh.Props
import Verif.Grid.CylinderProps
import Verif.Redist.Import
import Verif.Touch.StateLemmas

/-!
# Lemmas on the discretization "PdQuickGrid"
-/

namespace Verif.Quick

open Verif Verif.Mech Verif.Neigh

/-- A point with its data, as load balancing handles it. -/
def cell (enc : ℝ → Balance.Dbl) (X : Nat → V3) (V : Nat → ℝ) (N : Nat → List Nat) (g : Nat) : Balance.Pt :=
  ⟨g, [enc (X g 0), enc (X g 1), enc (X g 2)], enc (V g), N g⟩

theorem holds_unique {g : Balance.GridData} {p1 p2 : List Balance.Pt} (h1 : Balance.Holds g p1)
    (h2 : Balance.Holds g p2) : p1 = p2 := by
  have hl : p1.length = p2.length := by rw [← h1.1, ← h2.1]
  refine List.ext_getElem hl ?_
  intro k a b
  have e1 := Balance.keepPoint_ok h1 (List.getElem?_eq_getElem a)
  have e2 := Balance.keepPoint_ok h2 (List.getElem?_eq_getElem b)
  rw [e1] at e2
  exact Outcome.ok.inj e2

theorem gridData_holds (enc : ℝ → Balance.Dbl) {d : Grid.Data} {X : Nat → V3} {V : Nat → ℝ} {N : Nat → List Nat}
    (hx : d.x = d.gids.map X) (hv : d.volume = d.gids.map V) (hn : d.neighborhood = encode (d.gids.map N))
    (hp : d.neighborhoodPtr = offsets (d.gids.map N)) :
    Balance.Holds (gridData enc d) (d.gids.map (cell enc X V N)) := by
  refine ⟨by simp [gridData], ?_, ?_, ?_, ?_, ?_, ?_, ?_, rfl⟩
  · simp [gridData, cell, Function.comp_def]
  · intro a ha
    obtain ⟨g, _, rfl⟩ := List.mem_map.mp ha
    rfl
  · simp [gridData, cell, hx, List.flatMap_map]
  · simp [gridData, cell, hv, Function.comp_def]
  · simp [gridData, hp, offsets_length]
  · intro k a i hk hi
    obtain ⟨hlt, rfl⟩ := List.getElem?_eq_some_iff.mp hk
    have hlt' : k < (d.gids.map N).length := by simpa using hlt
    have hi : (offsets (d.gids.map N))[k]? = some i := by rw [← hp]; exact hi
    rw [offsets_get _ _ hlt'] at hi
    refine ⟨encode ((d.gids.map N).take k), encode ((d.gids.map N).drop (k + 1)), ?_, Option.some.inj hi⟩
    have hs := Balance.split_at (List.getElem?_eq_getElem hlt')
    show d.neighborhood = _
    rw [hn]
    conv_lhs => rw [hs]
    rw [encode_append, encode_cons]
    simp [cell]
  · simp [gridData]

/-- The points of a processor after load balancing, as points of a mesh of one block. -/
def meshPts (N : Nat → List Nat) (ids : List Nat) : List Neigh.Pt := ids.map fun g => ⟨g, N g, 1⟩

theorem flatMap_const_length {α β : Type} (f : α → List β) (n : Nat) (hf : ∀ a, (f a).length = n) (l : List α) :
    (l.flatMap f).length = n * l.length := by
  induction l with
  | nil => rfl
  | cons a l ih => rw [List.flatMap_cons, List.length_append, ih, hf, List.length_cons, Nat.mul_succ, Nat.add_comm]

theorem flatMap_get {α β : Type} (f : α → List β) (n : Nat) (hf : ∀ a, (f a).length = n) :
    ∀ (l : List α) (k : Nat) (a : α), l[k]? = some a → ∀ i < n, (l.flatMap f)[n * k + i]? = (f a)[i]? := by
  intro l
  induction l with
  | nil => intro k a h; simp at h
  | cons b l ih =>
    intro k a h i hi
    rw [List.flatMap_cons]
    cases k with
    | zero =>
      obtain rfl : b = a := by simpa using h
      rw [Nat.mul_zero, Nat.zero_add, List.getElem?_append_left (by rw [hf]; exact hi)]
    | succ k =>
      rw [List.getElem?_append_right (by rw [hf, Nat.mul_succ]; omega), hf]
      have e : n * (k + 1) + i - n = n * k + i := by rw [Nat.mul_succ]; omega
      rw [e]
      exact ih k a (by simpa using h) i hi

theorem finish_ok (enc : ℝ → Balance.Dbl) (h : ℝ) (total : Nat) {X : Nat → V3} {V : Nat → ℝ} {N : Nat → List Nat}
    {g : Balance.GridData} {ids : List Nat} (hh : Balance.Holds g (ids.map (cell enc X V N))) (hd : g.dim = 3)
    (hn : g.nbs = encode (ids.map N)) (hp : g.ptrs = offsets (ids.map N)) (hnd : ids.Nodup) :
    ∃ r, finish h total g = .ok r ∧ r.disc.owned = ids ∧ Carries enc h X V N r ∧ r.elements = List.range total := by
  obtain ⟨hnum, hids, hxl, hX, hV, _⟩ := hh
  have eids : g.ids = ids := by rw [hids]; simp [cell, Function.comp_def]
  have eX : g.X = ids.flatMap fun g => [enc (X g 0), enc (X g 1), enc (X g 2)] := by
    rw [hX]; simp [cell, List.flatMap_map]
  have eV : g.V = ids.map fun g => enc (V g) := by rw [hV]; simp [cell, Function.comp_def]
  have enum : g.numPoints = ids.length := by rw [hnum]; simp
  have hdisc : discretize ⟨g.ids, g.nbs, g.ptrs⟩ = .ok (discOf ids (ids.map N)) := by
    rw [eids, hn, hp]
    exact discretize_eq ids (ids.map N) (by simp)
  have hT1 : (meshPts N ids).map Neigh.Pt.gid = ids := by simp [meshPts, Function.comp_def]
  have hT2 : (meshPts N ids).map Neigh.Pt.nbrs = ids.map N := by simp [meshPts, Function.comp_def]
  have hbond : bondMap (discOf ids (ids.map N)) = .ok (Neigh.bondsOf (meshPts N ids)) := by
    have := bondMap_eq (meshPts N ids)
    rw [meshDisc, hT1, hT2] at this
    exact this
  refine ⟨⟨discOf ids (ids.map N), Neigh.bondsOf (meshPts N ids), g.X, g.V, List.replicate g.numPoints h,
    List.replicate g.numPoints 1, List.range total⟩, ?_, rfl, ?_, rfl⟩
  · rw [finish, hdisc]
    simp only [Outcome.ok_bind]
    rw [if_neg (by rw [hd]; simp), hbond]
    simp only [Outcome.ok_bind]
  · constructor
    · simp only [discOf, eX, eV, enum]
      exact ⟨flatMap_const_length (fun g => [enc (X g 0), enc (X g 1), enc (X g 2)]) 3 (fun _ => rfl) ids, by simp, by simp, by simp, by simp,
        by simp [offsets_length]⟩
    · intro k g' hk i
      simp only [discOf] at hk
      simp only [eX]
      rw [flatMap_get (fun g => [enc (X g 0), enc (X g 1), enc (X g 2)]) 3 (fun _ => rfl) ids k g' hk i i.2]
      fin_cases i <;> rfl
    · intro k g' hk
      simp only [discOf] at hk
      have hlt := (List.getElem?_eq_some_iff.mp hk).1
      refine ⟨?_, ?_, ?_⟩
      · simp only [eV, List.getElem?_map, hk, Option.map_some]
      · simp only [enum]; rw [List.getElem?_replicate, if_pos hlt]
      · simp only [enum]; rw [List.getElem?_replicate, if_pos hlt]
    · intro k g' hk
      simp only [discOf] at hk
      refine ⟨(overlapOf ids (ids.map N)).idxOf g', ?_, ?_⟩
      · simp only [discOf, List.getElem?_map, hk, Option.map_some]
      · simp only [discOf]
        exact List.getElem?_idxOf (List.mem_append_left _ (List.mem_of_getElem? hk))
    · intro k g' hk
      simp only [discOf] at hk
      have hlt := (List.getElem?_eq_some_iff.mp hk).1
      have hlt' : k < (ids.map N).length := by simpa using hlt
      have hget : (ids.map N)[k]? = some (N g') := by rw [List.getElem?_map, hk]; rfl
      obtain ⟨pos, h1, h2⟩ := C09_pointer ((ids.map N).map (·.map (overlapOf ids (ids.map N)).idxOf)) k
        ((N g').map (overlapOf ids (ids.map N)).idxOf) (by rw [List.getElem?_map, hget]; rfl)
      rw [offsets_map] at h1
      refine ⟨pos, _, h1, h2, ?_⟩
      rw [List.map_map]
      refine List.map_congr_left fun a ha => ?_
      simp only [Function.comp_def, discOf]
      exact List.getElem?_idxOf (mem_overlapOf (List.mem_of_getElem? hget) ha)
    · simp only [discOf, Neigh.bondsOf, meshPts]
      constructor
      · rw [List.filter_map, List.map_map]
        simp [Function.comp_def, List.length_pos_iff]
      · rw [List.map_map, List.filter_map, List.map_map, List.map_map]
        rfl
    · refine ⟨overlapOf_nodup hnd _, ?_⟩
      intro g'
      simp only [discOf, overlapOf, sharedOf, List.mem_append, mem_sortUnique, List.mem_flatMap, List.mem_filter,
        List.mem_map, decide_eq_true_eq]
      constructor
      · rintro (h1 | ⟨ns, ⟨a, ha, rfl⟩, h2, _⟩)
        · exact .inl h1
        · exact .inr ⟨a, ha, h2⟩
      · rintro (h1 | ⟨a, ha, h2⟩)
        · exact .inl h1
        · by_cases hm : g' ∈ ids
          · exact .inl hm
          · exact .inr ⟨_, ⟨a, ha, rfl⟩, h2, hm⟩

theorem range_flatMap {α β : Type} (F : α → List β) (l : List α) :
    ((List.range l.length).flatMap fun p => ((l[p]?).map F).getD []) = l.flatMap F := by
  induction l with
  | nil => rfl
  | cons a l ih =>
    rw [List.length_cons, List.range_succ_eq_map, List.flatMap_cons, List.flatMap_map, List.flatMap_cons, ← ih]
    rfl

theorem deliver_get {ds : List Grid.Data} {p : Nat} {d : Grid.Data} (h : Grid.deliver ds p = some d) :
    ds[p]? = some d := by
  rw [Grid.deliver] at h
  split at h
  · cases h
  · rename_i d' e
    split at h
    · rw [e]; exact h
    · cases h

theorem whole_ok (enc : ℝ → Balance.Dbl) (h : ℝ) {ds : List Grid.Data} {procs total : Nat} {X : Nat → V3}
    {V : Nat → ℝ} {N : Nat → List Nat} (hl : ds.length = procs) (hD : Grid.Describes ds total X V N)
    {P : Balance.Plan} {gs : Nat → Balance.GridData} {pts : Nat → List Balance.Pt} {origin : Nat → List (Nat × Nat)}
    (hm : Migrates enc ds procs P gs pts origin) :
    ∃ g out, Redist.allOk (balanced enc P ds) (List.range procs) = .ok g ∧
      Redist.allOk (finish h (g.map Balance.GridData.numPoints).sum) g = .ok out ∧
      Whole enc h total X V N procs out := by
  have hpts : ∀ p < procs, pts p = ((ds[p]?).map fun d => d.gids.map (cell enc X V N)).getD [] := by
    intro p hp
    obtain ⟨d, hd, hg⟩ := hm.grids p hp
    have hget := deliver_get hd
    have hmem := List.mem_of_getElem? hget
    rw [hget]
    refine holds_unique (hm.holds p hp) ?_
    rw [hg]
    exact gridData_holds enc (hD.x d hmem) (hD.volume d hmem) (hD.neighborhood d hmem) (hD.neighborhoodPtr d hmem)
  have hall : (List.range procs).flatMap pts = (List.range total).map (cell enc X V N) := by
    rw [← hD.gids, List.map_flatten, List.map_map]
    have e : (List.range procs).flatMap pts =
        (List.range procs).flatMap fun p => ((ds[p]?).map fun d => d.gids.map (cell enc X V N)).getD [] := by
      rw [List.flatMap_def, List.flatMap_def]
      congr 1
      exact List.map_congr_left fun p hp => hpts p (List.mem_range.mp hp)
    rw [e, ← hl, range_flatMap (fun d : Grid.Data => d.gids.map (cell enc X V N)) ds, List.flatMap_def]
    rfl
  have hperm := Balance.C128_permutation P procs gs pts origin hm.keeps
  rw [hall] at hperm
  have hcell : ∀ q < procs, ∀ a ∈ Balance.newPoints P pts origin q, cell enc X V N a.gid = a := by
    intro q hq a ha
    have := hperm.mem_iff.mp (List.mem_flatMap.mpr ⟨q, List.mem_range.mpr hq, ha⟩)
    obtain ⟨g, _, rfl⟩ := List.mem_map.mp this
    rfl
  have hids : ((List.range procs).flatMap fun q => (Balance.newPoints P pts origin q).map Balance.Pt.gid).Perm
      (List.range total) := by
    have := hperm.map Balance.Pt.gid
    rw [List.map_flatMap, List.map_map] at this
    refine this.trans (List.Perm.of_eq ?_)
    conv_rhs => rw [← List.map_id (List.range total)]
    rfl
  have hnd : ∀ q < procs, ((Balance.newPoints P pts origin q).map Balance.Pt.gid).Nodup := by
    intro q hq
    exact (List.nodup_flatMap.mp (hids.nodup_iff.mpr List.nodup_range)).1 q (List.mem_range.mpr hq)
  have hback : ∀ q < procs, ((Balance.newPoints P pts origin q).map Balance.Pt.gid).map (cell enc X V N) =
      Balance.newPoints P pts origin q := by
    intro q hq
    rw [List.map_map]
    conv_rhs => rw [← List.map_id (Balance.newPoints P pts origin q)]
    exact List.map_congr_left fun a ha => hcell q hq a ha
  have hnbs : ∀ q < procs, (Balance.newPoints P pts origin q).map Balance.Pt.nbs =
      ((Balance.newPoints P pts origin q).map Balance.Pt.gid).map N := by
    intro q hq
    rw [List.map_map]
    exact List.map_congr_left fun a ha => (congrArg Balance.Pt.nbs (hcell q hq a ha)).symm
  have hbal : ∀ q, q < procs → ∃ g, balanced enc P ds q = .ok g ∧
      Balance.Holds g (((Balance.newPoints P pts origin q).map Balance.Pt.gid).map (cell enc X V N)) ∧ g.dim = 3 ∧
      g.nbs = encode (((Balance.newPoints P pts origin q).map Balance.Pt.gid).map N) ∧
      g.ptrs = offsets (((Balance.newPoints P pts origin q).map Balance.Pt.gid).map N) := by
    intro q hq
    obtain ⟨g, h1, h2, h3, _, h4, h5⟩ := Balance.C128_exact P procs 3 gs pts origin hm.keeps hm.holds
      (fun p hp => by obtain ⟨d, _, e⟩ := hm.grids p hp; rw [e]; rfl)
      (fun p hp => by obtain ⟨d, _, e⟩ := hm.grids p hp; rw [e]; rfl) q hq
    obtain ⟨d, hd, e⟩ := hm.grids q hq
    refine ⟨g, ?_, by rw [hback q hq]; exact h2, h3, by rw [← hnbs q hq]; exact h4, by rw [← hnbs q hq]; exact h5⟩
    rw [balanced, hd]
    simp only
    rw [← e]
    exact h1
  have : Nonempty Balance.GridData := ⟨⟨0, 0, 0, 0, false, [], [], [], [], [], []⟩⟩
  choose! F hF using hbal
  have hg : Redist.allOk (balanced enc P ds) (List.range procs) = .ok ((List.range procs).map F) :=
    Touch.allOk_map _ _ _ fun q hq => (hF q (List.mem_range.mp hq)).1
  have hsum : (((List.range procs).map F).map Balance.GridData.numPoints).sum = total := by
    have e : ((List.range procs).map F).map Balance.GridData.numPoints =
        (List.range procs).map fun q => ((Balance.newPoints P pts origin q).map Balance.Pt.gid).length := by
      rw [List.map_map]
      refine List.map_congr_left fun q hq => ?_
      have := (hF q (List.mem_range.mp hq)).2.1.1
      simp only [Function.comp_def]
      rw [this, List.length_map]
    rw [e]
    have := hids.length_eq
    rw [List.length_flatMap, List.length_range] at this
    exact this
  have hfin : ∀ q, q < procs → ∃ r, finish h total (F q) = .ok r ∧
      r.disc.owned = (Balance.newPoints P pts origin q).map Balance.Pt.gid ∧ Carries enc h X V N r ∧
      r.elements = List.range total := by
    intro q hq
    obtain ⟨_, h2, h3, h4, h5⟩ := hF q hq
    exact finish_ok enc h total h2 h3 h4 h5 (hnd q hq)
  have : Nonempty Part := ⟨⟨⟨[], [], ⟨[], [], []⟩⟩, ⟨[], []⟩, [], [], [], [], []⟩⟩
  choose! R hR using hfin
  refine ⟨_, (List.range procs).map R, hg, ?_, ?_⟩
  · rw [hsum, Redist.allOk_iff, List.forall₂_map_left_iff, List.forall₂_map_right_iff, List.forall₂_same]
    exact fun q hq => (hR q (List.mem_range.mp hq)).1
  · refine ⟨by simp, ?_, ?_, ?_⟩
    · rw [List.flatMap_map]
      refine (List.Perm.of_eq ?_).trans hids
      rw [List.flatMap_def, List.flatMap_def]
      congr 1
      exact List.map_congr_left fun q hq => (hR q (List.mem_range.mp hq)).2.1
    · intro r hr
      obtain ⟨q, hq, rfl⟩ := List.mem_map.mp hr
      exact (hR q (List.mem_range.mp hq)).2.2.1
    · intro r hr
      obtain ⟨q, hq, rfl⟩ := List.mem_map.mp hr
      exact (hR q (List.mem_range.mp hq)).2.2.2

/-! ### A plan that moves a point -/

/-- The first point of the first processor, `a`, goes to the second processor. -/
def moveFirst (dim : Nat) (a : Balance.Pt) : Balance.Plan where
  exports p := if p = 0 then [(0, 1)] else []
  sendIdx p := if p = 0 then [0] else []
  sendBuf _ := List.replicate (Balance.width dim a) 0
  imports q := if q = 1 then [a.gid] else []
  recvIdx q := if q = 1 then [0] else []
  recvBuf _ := Balance.pointWords a

theorem moveFirst_keeps {procs : Nat} {gs : Nat → Balance.GridData} {pts : Nat → List Balance.Pt} {a : Balance.Pt}
    {rest : List Balance.Pt} (hp : 2 ≤ procs) (hh : ∀ p < procs, Balance.Holds (gs p) (pts p))
    (h0 : pts 0 = a :: rest) :
    Balance.Keeps (moveFirst (gs 0).dim a) procs gs pts fun q => if q = 1 then [(0, 0)] else [] := by
  have one : ∀ {α : Type} {x y : α} {j : Nat}, [x][j]? = some y → j = 0 ∧ x = y := by
    intro α x y j h
    obtain ⟨hj, he⟩ := List.getElem?_eq_some_iff.mp h
    have hj : j = 0 := by simpa using hj
    subst hj
    exact ⟨rfl, he⟩
  have key : ∀ {p j : Nat} {e : Nat × Nat}, ((moveFirst (gs 0).dim a).exports p)[j]? = some e →
      p = 0 ∧ j = 0 ∧ e = (0, 1) := by
    intro p j e h
    by_cases hp0 : p = 0
    · simp only [moveFirst, if_pos hp0] at h
      obtain ⟨h1, h2⟩ := one h
      exact ⟨hp0, h1, h2.symm⟩
    · simp only [moveFirst, if_neg hp0] at h
      simp at h
  have key2 : ∀ {p j i : Nat}, ((moveFirst (gs 0).dim a).sendIdx p)[j]? = some i → p = 0 ∧ j = 0 ∧ i = 0 := by
    intro p j i h
    by_cases hp0 : p = 0
    · simp only [moveFirst, if_pos hp0] at h
      obtain ⟨h1, h2⟩ := one h
      exact ⟨hp0, h1, h2.symm⟩
    · simp only [moveFirst, if_neg hp0] at h
      simp at h
  have hroom : ∀ p < procs, ∀ (j : Nat) e i b, ((moveFirst (gs 0).dim a).exports p)[j]? = some e →
      ((moveFirst (gs 0).dim a).sendIdx p)[j]? = some i → (pts p)[e.1]? = some b →
      i + Balance.width (gs p).dim b ≤ ((moveFirst (gs 0).dim a).sendBuf p).length := by
    intro p _ j e i b he hi hb
    obtain ⟨rfl, rfl, rfl⟩ := key he
    obtain ⟨_, _, rfl⟩ := key2 hi
    rw [h0] at hb
    obtain rfl : a = b := by simpa using hb
    simp [moveFirst]
  have hapart : ∀ p < procs, ∀ (j j' : Nat) e i i' b, j < j' → ((moveFirst (gs 0).dim a).exports p)[j]? = some e →
      ((moveFirst (gs 0).dim a).sendIdx p)[j]? = some i → ((moveFirst (gs 0).dim a).sendIdx p)[j']? = some i' →
      (pts p)[e.1]? = some b → i + Balance.width (gs p).dim b ≤ i' := by
    intro p _ j j' e i i' b hj _ _ hi'
    obtain ⟨_, rfl, _⟩ := key2 hi'
    omega
  have hvalid : ∀ p < procs, ∀ e ∈ (moveFirst (gs 0).dim a).exports p, e.1 < (pts p).length ∧ e.2 < procs := by
    intro p _ e he
    obtain ⟨j, hj⟩ := List.mem_iff_getElem?.mp he
    obtain ⟨rfl, _, rfl⟩ := key hj
    rw [h0]
    exact ⟨by simp, by omega⟩
  refine ⟨?_, hvalid, ?_, hroom, hapart, ?_, ?_, ?_, ?_⟩
  · intro p _
    by_cases hp0 : p = 0 <;> simp [moveFirst, hp0]
  · intro p _
    by_cases hp0 : p = 0 <;> simp [moveFirst, hp0]
  · intro q _
    obtain ⟨m, rfl⟩ : ∃ m, procs = m + 1 := ⟨procs - 1, by omega⟩
    rw [List.range_succ_eq_map, List.flatMap_cons, List.flatMap_map]
    have hrest : ((List.range m).flatMap fun p =>
        ((((moveFirst (gs 0).dim a).exports (p + 1)).filter fun e => e.2 = q).map fun e => (p + 1, e.1))) = [] := by
      rw [List.flatMap_eq_nil_iff]
      intro p _
      simp [moveFirst]
    rw [hrest, List.append_nil]
    refine List.Perm.of_eq ?_
    by_cases hq : q = 1
    · subst hq; simp [moveFirst]
    · simp [moveFirst, hq, Ne.symm hq]
  · intro q _
    by_cases hq : q = 1
    · subst hq; simp [moveFirst, Balance.arriving, h0]
    · simp [moveFirst, hq, Balance.arriving]
  · intro q _
    by_cases hq : q = 1 <;> simp [moveFirst, hq]
  · intro q _ k j p e i i' b s ho he hi hi' hb hs
    obtain ⟨rfl, rfl, rfl⟩ := key he
    obtain ⟨_, _, rfl⟩ := key2 hi
    have hb' := hb
    rw [h0] at hb'
    obtain rfl : a = b := by simpa using hb'
    obtain ⟨buf, hbuf, hw⟩ := Balance.packOn_ok (hh 0 (by omega))
      (fun e he => (hvalid 0 (by omega) e he).1) (hroom 0 (by omega)) (hapart 0 (by omega))
    rw [hbuf] at hs
    injection hs with hs
    subst hs
    rw [hw 0 _ _ _ he hi hb]
    have hi0 : i' = 0 := by
      by_cases hq : q = 1
      · simp only [moveFirst, if_pos hq] at hi'
        exact (one hi').2.symm
      · simp only [moveFirst, if_neg hq] at hi'
        simp at hi'
    subst hi0
    have hx : a.x.length = (gs 0).dim := (hh 0 (by omega)).2.2.1 a (List.mem_of_getElem? hb)
    have := Balance.slice_mid [] (Balance.pointWords a) [] (pos := 0) (n := Balance.width (gs 0).dim a) rfl
      (Balance.pointWords_length hx).symm
    simpa [moveFirst] using this

end Verif.Quick
