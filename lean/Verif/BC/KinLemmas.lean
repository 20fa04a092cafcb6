import Verif.BC.Spec
import Verif.BC.Lemmas
import Verif.Dof.Props

/-!
# Kinematic conditions: helper lemmas
-/

namespace Verif.BC

open Verif

/-! ## The tangent map -/

theorem tangentGids_length (n : Nat) (owned : List Nat) :
    (tangentGids n owned).length = n * owned.length := by
  unfold tangentGids
  induction owned with
  | nil => simp
  | cons a as ih =>
    rw [List.flatMap_cons, List.length_append, ih, List.length_cons, Nat.mul_succ]
    simp [Nat.add_comm]

theorem mem_tangentGids {n : Nat} {owned : List Nat} {r : Nat} :
    r ∈ tangentGids n owned ↔ ∃ g ∈ owned, ∃ k < n, r = n * g + k := by
  unfold tangentGids
  simp only [List.mem_flatMap, List.mem_map, List.mem_range]
  constructor
  · rintro ⟨g, hg, k, hk, e⟩; exact ⟨g, hg, k, hk, e.symm⟩
  · rintro ⟨g, hg, k, hk, e⟩; exact ⟨g, hg, k, hk, e.symm⟩

theorem idxOf_tangentGids {n : Nat} (hn : 0 < n) (owned : List Nat) {g : Nat} (hg : g ∈ owned) :
    (tangentGids n owned).idxOf (n * g) = n * owned.idxOf g := by
  induction owned with
  | nil => exact absurd hg (by simp)
  | cons a as ih =>
    have hcons : tangentGids n (a :: as) =
        ((List.range n).map fun k => n * a + k) ++ tangentGids n as := by
      unfold tangentGids; rw [List.flatMap_cons]
    rw [hcons]
    by_cases e : a = g
    · subst e
      rw [List.idxOf_cons_self, Nat.mul_zero]
      obtain ⟨k, rfl⟩ : ∃ k, n = k + 1 := ⟨n - 1, by omega⟩
      rw [List.range_succ_eq_map, List.map_cons, List.cons_append]
      exact List.idxOf_cons_self
    · have hnot : n * g ∉ (List.range n).map fun k => n * a + k := by
        intro hm
        obtain ⟨k, hk, he⟩ := List.mem_map.mp hm
        rw [List.mem_range] at hk
        apply e
        have h1 : (n * a + k) / n = a := by
          rw [Nat.mul_add_div hn, Nat.div_eq_of_lt hk, Nat.add_zero]
        rw [he, Nat.mul_div_cancel_left _ hn] at h1
        exact h1.symm
      have hg' : g ∈ as := by
        rcases List.mem_cons.mp hg with h | h
        · exact absurd h.symm e
        · exact h
      rw [List.idxOf_append_of_notMem hnot, ih hg', List.idxOf_cons_ne _ e]
      simp [Nat.mul_succ, Nat.add_comm]

theorem lid_tangentGids {n : Nat} (hn : 0 < n) (owned : List Nat) (g : Nat) :
    lid (tangentGids n owned) (n * g) = (lid owned g).map fun l => n * l := by
  unfold lid
  by_cases hg : g ∈ owned
  · have : n * g ∈ tangentGids n owned := mem_tangentGids.mpr ⟨g, hg, 0, hn, rfl⟩
    rw [if_pos hg, if_pos this, idxOf_tangentGids hn owned hg]
    rfl
  · have : n * g ∉ tangentGids n owned := by
      intro h
      obtain ⟨g', hg', k, hk, e⟩ := mem_tangentGids.mp h
      apply hg
      have h1 : (n * g' + k) / n = g' := by
        rw [Nat.mul_add_div hn, Nat.div_eq_of_lt hk, Nat.add_zero]
      rw [← e, Nat.mul_div_cancel_left _ hn] at h1
      rw [h1]; exact hg'
    rw [if_neg hg, if_neg this]
    rfl

/-! ## `constrains` -/

theorem constrains_some {m : Dof.Manager} {t : BCType} {o : Nat} :
    constrains m t = some o ↔ ∃ q, unknownOf t = some q ∧ m.active q = true ∧ o = m.offset q := by
  have key : ∀ q0 : Dof.Unknown, (if m.active q0 = true then some (m.offset q0) else none) = some o ↔
      ∃ q, some q0 = some q ∧ m.active q = true ∧ o = m.offset q := by
    intro q0
    split
    · rename_i ha
      constructor
      · intro h; injection h with h; exact ⟨_, rfl, ha, h.symm⟩
      · rintro ⟨q, h, _, e⟩
        injection h with h
        subst h; rw [e]
    · rename_i ha
      constructor
      · intro h; exact absurd h (by simp)
      · rintro ⟨q, h, ha', e⟩
        injection h with h
        subst h; exact absurd ha' ha
  have none' : (none : Option Nat) = some o ↔
      ∃ q, (none : Option Dof.Unknown) = some q ∧ m.active q = true ∧ o = m.offset q := by simp
  cases t <;> first | exact key _ | exact none'

/-! ## Assignments at listed positions -/

theorem foldl_set_length (f : Nat → ℝ) (ps : List Nat) : ∀ v : List ℝ,
    (ps.foldl (fun v i => v.set i (f i)) v).length = v.length := by
  induction ps with
  | nil => intro v; rfl
  | cons p ps ih => intro v; rw [List.foldl_cons, ih, List.length_set]

theorem foldl_set_get (f : Nat → ℝ) (ps : List Nat) : ∀ (v : List ℝ) (j : Nat), j < v.length →
    (ps.foldl (fun v i => v.set i (f i)) v)[j]? = if j ∈ ps then some (f j) else v[j]? := by
  induction ps with
  | nil => intro v j _; simp
  | cons p ps ih =>
    intro v j hj
    rw [List.foldl_cons, ih _ j (by rw [List.length_set]; exact hj)]
    by_cases h : j ∈ ps
    · rw [if_pos h, if_pos (List.mem_cons_of_mem _ h)]
    · rw [if_neg h]
      by_cases e : p = j
      · subst e
        rw [if_pos (List.mem_cons_self ..), List.getElem?_set_self hj]
      · rw [List.getElem?_set_ne e, if_neg]
        intro hm
        rcases List.mem_cons.mp hm with h1 | h1
        · exact e h1.symm
        · exact h h1

/-! ## Positions written by one condition -/

/-- Positions of the entries a condition addresses. -/
def positions (m : Dof.Manager) (owned : List Nat) (sets : NodeSets) (c : Condition) : List Nat :=
  match constrains m c.type with
  | none => []
  | some offset =>
      match sets c.nodeSet with
      | none => []
      | some nodes => nodes.filterMap fun g => (lid owned g).map fun l => m.total * l + (offset + c.coord)

theorem mem_positions {m : Dof.Manager} {owned : List Nat} {sets : NodeSets} {c : Condition}
    {p : Nat} : p ∈ positions m owned sets c ↔
      ∃ q, unknownOf c.type = some q ∧ m.active q = true ∧
        ∃ nodes g l, sets c.nodeSet = some nodes ∧ g ∈ nodes ∧ lid owned g = some l ∧
          p = m.total * l + (m.offset q + c.coord) := by
  unfold positions
  split
  · rename_i h
    constructor
    · intro hp; exact absurd hp (by simp)
    · rintro ⟨q, hq, ha, _⟩
      rw [constrains_some.mpr ⟨q, hq, ha, rfl⟩] at h
      exact absurd h (by simp)
  · rename_i o h
    obtain ⟨q, hq, ha, ho⟩ := constrains_some.mp h
    split
    · rename_i hs
      constructor
      · intro hp; exact absurd hp (by simp)
      · rintro ⟨_, _, _, nodes, _, _, hs', _⟩
        rw [hs] at hs'; exact absurd hs' (by simp)
    · rename_i nodes hs
      simp only [List.mem_filterMap, Option.map_eq_some_iff]
      constructor
      · rintro ⟨g, hg, l, hl, e⟩
        exact ⟨q, hq, ha, nodes, g, l, hs, hg, hl, by rw [← e, ho]⟩
      · rintro ⟨q', hq', _, nodes', g, l, hs', hg, hl, e⟩
        rw [hs] at hs'
        injection hs' with hs'
        subst hs'
        have : q' = q := by rw [hq] at hq'; injection hq' with h; exact h.symm
        subst this
        exact ⟨g, hg, l, hl, by rw [e, ho]⟩

theorem positions_lt {m : Dof.Manager} (hm : Dof.GoodLayout m) {owned : List Nat} {sets : NodeSets}
    {c : Condition} (hc : ∀ q, unknownOf c.type = some q → c.coord < Dof.width q) {p : Nat}
    (hp : p ∈ positions m owned sets c) : 0 < m.total ∧ p < m.total * owned.length := by
  obtain ⟨q, hq, ha, nodes, g, l, _, _, hl, e⟩ := mem_positions.mp hp
  obtain ⟨hw, hcov, _⟩ := hm
  have hs : m.offset q + c.coord < m.total :=
    (hcov _).mpr ⟨q, c.coord, ha, by rw [hw q ha]; exact hc q hq, rfl⟩
  obtain ⟨hmem, hidx⟩ := lid_some.mp hl
  have hl' : l < owned.length := by rw [hidx]; exact List.idxOf_lt_length_of_mem hmem
  refine ⟨by omega, ?_⟩
  rw [e]
  calc m.total * l + (m.offset q + c.coord) < m.total * l + m.total := by omega
    _ = m.total * (l + 1) := by rw [Nat.mul_succ]
    _ ≤ m.total * owned.length := Nat.mul_le_mul_left _ hl'

theorem assign_ok {v : List ℝ} {i : Nat} {r : ℝ} (h : i < v.length) :
    assign v i r = .ok (v.set i r) := by
  unfold assign; rw [if_pos h]

theorem zeroNodes_eq {n slot : Nat} (hn : 0 < n) (owned : List Nat) (nodes : List Nat) :
    ∀ v : List ℝ,
    (∀ g ∈ nodes, ∀ l, lid owned g = some l → n * l + slot < v.length) →
    nodes.foldlM (zeroNode (tangentGids n owned) n slot) v =
      .ok ((nodes.filterMap fun g => (lid owned g).map fun l => n * l + slot).foldl
        (fun v i => v.set i 0) v) := by
  induction nodes with
  | nil => intro v _; rfl
  | cons g nodes ih =>
    intro v hb
    rw [List.foldlM_cons]
    have hz : zeroNode (tangentGids n owned) n slot v g =
        match lid owned g with
        | none => .ok v
        | some l => .ok (v.set (n * l + slot) 0) := by
      unfold zeroNode
      rw [lid_tangentGids hn]
      cases hl : lid owned g with
      | none => rfl
      | some l => exact assign_ok (hb g (List.mem_cons_self ..) l hl)
    rw [hz]
    cases hl : lid owned g with
    | none =>
      rw [List.filterMap_cons, hl]
      exact ih v fun g' hg' l hl' => hb g' (List.mem_cons_of_mem _ hg') l hl'
    | some l =>
      rw [List.filterMap_cons, hl]
      exact ih _ fun g' hg' l hl' => by
        rw [List.length_set]; exact hb g' (List.mem_cons_of_mem _ hg') l hl'

theorem zeroCondition_eq {m : Dof.Manager} (hm : Dof.GoodLayout m) {owned : List Nat}
    {sets : NodeSets} {c : Condition}
    (hc : ∀ q, unknownOf c.type = some q → c.coord < Dof.width q)
    (hs : ∀ q, unknownOf c.type = some q → m.active q = true → ∃ nodes, sets c.nodeSet = some nodes)
    {v : List ℝ} (hv : v.length = m.total * owned.length) :
    zeroCondition m (tangentGids m.total owned) sets v c =
      .ok ((positions m owned sets c).foldl (fun v i => v.set i 0) v) := by
  have hlt := fun p => positions_lt hm (owned := owned) (sets := sets) (c := c) (p := p) hc
  cases ho : constrains m c.type with
  | none =>
    have hp : positions m owned sets c = [] := by unfold positions; rw [ho]
    rw [hp]; unfold zeroCondition; rw [ho]; rfl
  | some o =>
    obtain ⟨q, hq, ha, e⟩ := constrains_some.mp ho
    obtain ⟨nodes, hn⟩ := hs q hq ha
    have hpos : 0 < m.total := by
      have : m.offset q + c.coord < m.total :=
        (hm.2.1 _).mpr ⟨q, c.coord, ha, by rw [hm.1 q ha]; exact hc q hq, rfl⟩
      omega
    have hp : positions m owned sets c =
        nodes.filterMap fun g => (lid owned g).map fun l => m.total * l + (o + c.coord) := by
      unfold positions; rw [ho]; simp only; rw [hn]
    have hz : zeroCondition m (tangentGids m.total owned) sets v c =
        nodes.foldlM (zeroNode (tangentGids m.total owned) m.total (o + c.coord)) v := by
      unfold zeroCondition; rw [ho]; simp only; rw [hn]
    rw [hz, hp]
    apply zeroNodes_eq hpos
    intro g hg l hl
    rw [hv]
    refine (hlt _ ?_).2
    rw [hp]
    exact List.mem_filterMap.mpr ⟨g, hg, by rw [hl]; rfl⟩

theorem insertZeros_eq {m : Dof.Manager} (hm : Dof.GoodLayout m) {owned : List Nat}
    {sets : NodeSets} (cs : List Condition) (hc : CoordsOk cs) (hs : SetsFound m sets cs) :
    ∀ v : List ℝ, v.length = m.total * owned.length →
    insertZeros m (tangentGids m.total owned) sets cs v =
      .ok ((cs.flatMap (positions m owned sets)).foldl (fun v i => v.set i 0) v) := by
  induction cs with
  | nil => intro v _; rfl
  | cons c cs ih =>
    intro v hv
    unfold insertZeros
    rw [List.foldlM_cons, zeroCondition_eq hm (hc c (List.mem_cons_self ..))
      (hs c (List.mem_cons_self ..)) hv, List.flatMap_cons, List.foldl_append]
    exact ih (fun c h => hc c (List.mem_cons_of_mem _ h)) (fun c h => hs c (List.mem_cons_of_mem _ h)) _
      (by rw [foldl_set_length (fun _ => 0)]; exact hv)

/-- Positions and constrained degrees of freedom. -/
theorem mem_positions_iff {m : Dof.Manager} (hm : Dof.GoodLayout m) {owned : List Nat}
    {sets : NodeSets} {cs : List Condition} (hc : CoordsOk cs) {g l : Nat}
    (hl : lid owned g = some l) {q : Dof.Unknown} {k : Nat} (ha : m.active q = true)
    (hk : k < m.number q) :
    m.total * l + (m.offset q + k) ∈ cs.flatMap (positions m owned sets) ↔
      Constrained m sets cs g q k := by
  have hlt : m.offset q + k < m.total := (hm.2.1 _).mpr ⟨q, k, ha, hk, rfl⟩
  rw [List.mem_flatMap]
  constructor
  · rintro ⟨c, hcs, hp⟩
    obtain ⟨q', hq', ha', nodes, g', l', hs, hg', hl', e⟩ := mem_positions.mp hp
    have hk' : c.coord < m.number q' := by rw [hm.1 q' ha']; exact hc c hcs q' hq'
    have hlt' : m.offset q' + c.coord < m.total := (hm.2.1 _).mpr ⟨q', c.coord, ha', hk', rfl⟩
    have e' : m.total * l + m.offset q + k = m.total * l' + m.offset q' + c.coord := by omega
    obtain ⟨rfl, rfl, rfl⟩ := (Dof.rows_one_to_one m hm).1 l q k l' q' c.coord ha hk ha' hk' e'
    have : g' = g := lid_inj hl' hl
    subst this
    exact ⟨ha, c, hcs, hq', rfl, nodes, hs, hg'⟩
  · rintro ⟨_, c, hcs, hq, rfl, nodes, hs, hg⟩
    exact ⟨c, hcs, mem_positions.mpr ⟨q, hq, ha, nodes, g, l, hs, hg, hl, rfl⟩⟩

/-! ## Reactions -/

theorem reactNodes_eq {n slot : Nat} (owned : List Nat) (force : List ℝ) (nodes : List Nat) :
    ∀ v : List ℝ, v.length = force.length →
    (∀ g ∈ nodes, ∀ l, lid owned g = some l → n * l + slot < force.length) →
    nodes.foldlM (reactNode owned n slot force) v =
      .ok ((nodes.filterMap fun g => (lid owned g).map fun l => n * l + slot).foldl
        (fun v i => v.set i (force.getD i 0)) v) := by
  induction nodes with
  | nil => intro v _ _; rfl
  | cons g nodes ih =>
    intro v hv hb
    rw [List.foldlM_cons, List.filterMap_cons]
    cases hl : lid owned g with
    | none =>
      have hz : reactNode owned n slot force v g = .ok v := by unfold reactNode; rw [hl]
      rw [hz]
      exact ih v hv fun g' hg' l hl' => hb g' (List.mem_cons_of_mem _ hg') l hl'
    | some l =>
      have hlt := hb g (List.mem_cons_self ..) l hl
      have hz : reactNode owned n slot force v g =
          .ok (v.set (n * l + slot) (force.getD (n * l + slot) 0)) := by
        unfold reactNode; rw [hl]; simp only
        rw [List.getElem?_eq_getElem hlt]
        simp only
        rw [assign_ok (by rw [hv]; exact hlt), List.getD_eq_getElem?_getD, List.getElem?_eq_getElem hlt]
        rfl
      rw [hz]
      exact ih _ (by rw [List.length_set]; exact hv) fun g' hg' l hl' =>
        hb g' (List.mem_cons_of_mem _ hg') l hl'

theorem reactions_eq {m : Dof.Manager} (hm : Dof.GoodLayout m) {owned : List Nat}
    {sets : NodeSets} {force : List ℝ} (hf : force.length = m.total * owned.length)
    (cs : List Condition) (hc : CoordsOk cs) (hs : SetsFound m sets cs) :
    ∀ v : List ℝ, v.length = force.length →
    cs.foldlM (reactCondition m owned sets force) v =
      .ok ((cs.flatMap (positions m owned sets)).foldl (fun v i => v.set i (force.getD i 0)) v) := by
  induction cs with
  | nil => intro v _; rfl
  | cons c cs ih =>
    intro v hv
    have hcc := hc c (List.mem_cons_self ..)
    have hsc := hs c (List.mem_cons_self ..)
    have h1 : reactCondition m owned sets force v c =
        .ok ((positions m owned sets c).foldl (fun v i => v.set i (force.getD i 0)) v) := by
      have hlt := fun p => positions_lt hm (owned := owned) (sets := sets) (c := c) (p := p) hcc
      cases ho : constrains m c.type with
      | none =>
        have hp : positions m owned sets c = [] := by unfold positions; rw [ho]
        rw [hp]; unfold reactCondition; rw [ho]; rfl
      | some o =>
        obtain ⟨q, hq, ha, e⟩ := constrains_some.mp ho
        obtain ⟨nodes, hn⟩ := hsc q hq ha
        have hp : positions m owned sets c =
            nodes.filterMap fun g => (lid owned g).map fun l => m.total * l + (o + c.coord) := by
          unfold positions; rw [ho]; simp only; rw [hn]
        have hz : reactCondition m owned sets force v c =
            nodes.foldlM (reactNode owned m.total (o + c.coord) force) v := by
          unfold reactCondition; rw [ho]; simp only; rw [hn]
        rw [hz, hp]
        apply reactNodes_eq owned force nodes v hv
        intro g hg l hl
        rw [hf]
        refine (hlt _ ?_).2
        rw [hp]
        exact List.mem_filterMap.mpr ⟨g, hg, by rw [hl]; rfl⟩
    rw [List.foldlM_cons, h1, List.flatMap_cons, List.foldl_append]
    exact ih (fun c h => hc c (List.mem_cons_of_mem _ h)) (fun c h => hs c (List.mem_cons_of_mem _ h)) _
      (by rw [foldl_set_length (fun i => force.getD i 0)]; exact hv)

/-! ## Matrix -/

theorem replaceCols (f : Nat → ℝ) (r : Nat) (cols : List Nat) : ∀ (e : Nat → Nat → Option ℝ)
    (r' c' : Nat),
    cols.foldl (fun e c => replace e r c (f c)) e r' c' =
      if r' = r ∧ c' ∈ cols then (e r' c').map (fun _ => f c') else e r' c' := by
  induction cols with
  | nil => intro e r' c'; simp
  | cons c cols ih =>
    intro e r' c'
    rw [List.foldl_cons, ih]
    unfold replace
    by_cases h1 : r' = r
    · by_cases h2 : c' = c
      · subst h1; subst h2
        by_cases h3 : c' ∈ cols <;> simp [h3, Function.comp_def]
      · by_cases h3 : c' ∈ cols <;> simp [h1, h2, h3]
    · simp [h1]

theorem zeroColumns_entry (rows cols : List Nat) : ∀ (e : Nat → Nat → Option ℝ) (r c : Nat),
    zeroColumns e rows cols r c =
      if r ∈ rows ∧ c ∈ cols then (e r c).map (fun _ => 0) else e r c := by
  unfold zeroColumns
  induction rows with
  | nil => intro e r c; simp
  | cons r0 rows ih =>
    intro e r c
    rw [List.foldl_cons, ih, replaceCols (fun _ => 0)]
    by_cases h1 : r = r0
    · subst h1
      by_cases h2 : c ∈ cols
      · by_cases h3 : r ∈ rows <;> simp [h2, h3, Function.comp_def]
      · simp [h2]
    · by_cases h2 : r ∈ rows <;> simp [h1, h2]

theorem setRows_entry (rows cols : List Nat) (d : ℝ) (ks : List Nat) :
    ∀ (e : Nat → Nat → Option ℝ) (r c : Nat),
    ks.foldl (fun e k => setRow e rows cols d k) e r c =
      if r ∈ ks ∧ r ∈ rows ∧ c ∈ cols then (e r c).map (fun _ => if c = r then d else 0)
      else e r c := by
  induction ks with
  | nil => intro e r c; simp
  | cons k ks ih =>
    intro e r c
    rw [List.foldl_cons, ih]
    have hset : setRow e rows cols d k r c =
        if r = k ∧ k ∈ rows ∧ c ∈ cols then (e r c).map (fun _ => if c = k then d else 0)
        else e r c := by
      unfold setRow
      by_cases hk : k ∈ rows
      · rw [if_pos hk, replaceCols (fun c => if c = k then d else 0)]
        simp [hk]
      · rw [if_neg hk]
        simp [hk]
    rw [hset]
    by_cases h1 : r = k
    · subst h1
      by_cases h2 : r ∈ ks <;> by_cases h3 : r ∈ rows <;> by_cases h4 : c ∈ cols <;>
        simp [h2, h3, h4, Function.comp_def]
    · by_cases h2 : r ∈ ks <;> simp [h1, h2]

open Classical in
/-- The effect on one entry, given the set of constrained rows. -/
noncomputable def decoupled (G : Nat → Prop) (d : ℝ) (r c : Nat) (a : ℝ) : ℝ :=
  if G r then (if c = r then d else 0) else if G c then 0 else a

theorem decoupled_union (G H : Nat → Prop) (d : ℝ) (r c : Nat) (a : ℝ) :
    decoupled H d r c (decoupled G d r c a) = decoupled (fun k => G k ∨ H k) d r c a := by
  unfold decoupled
  by_cases h1 : G r <;> by_cases h2 : H r <;> by_cases h3 : G c <;> by_cases h4 : H c <;>
    by_cases e : c = r <;> simp_all

/-- Rows addressed by one condition. -/
def CondRow (m : Dof.Manager) (sets : NodeSets) (c : Condition) (r : Nat) : Prop :=
  ∃ q, unknownOf c.type = some q ∧ m.active q = true ∧
    ∃ nodes g, sets c.nodeSet = some nodes ∧ g ∈ nodes ∧ r = m.total * g + m.offset q + c.coord

theorem matrixCondition_ok {m : Dof.Manager} {sets : NodeSets} {d : ℝ} {A A' : RankMatrix}
    (hA : A.WF) {c : Condition} (h : matrixCondition m sets d A c = .ok A') :
    A'.rows = A.rows ∧ A'.cols = A.cols ∧ A'.WF ∧
    ∀ r k, A'.entry r k = (A.entry r k).map (decoupled (CondRow m sets c) d r k) := by
  unfold matrixCondition at h
  split at h
  · rename_i ho
    have := ok_inj h
    subst this
    refine ⟨rfl, rfl, hA, ?_⟩
    intro r k
    have hn : ∀ r, ¬ CondRow m sets c r := by
      rintro r ⟨q, hq, ha, _⟩
      rw [constrains_some.mpr ⟨q, hq, ha, rfl⟩] at ho
      exact absurd ho (by simp)
    have : decoupled (CondRow m sets c) d r k = id := by
      funext a; unfold decoupled; rw [if_neg (hn r), if_neg (hn k)]; rfl
    rw [this, Option.map_id]; rfl
  · rename_i o ho
    obtain ⟨q, hq, ha, e⟩ := constrains_some.mp ho
    split at h
    · exact absurd h (by simp)
    · rename_i nodes hn
      simp only at h
      split at h
      · exact absurd h (by simp)
      · have h := ok_inj h
        have hmem : ∀ r, r ∈ (nodes.map fun g => m.total * g + o + c.coord) ↔
            CondRow m sets c r := by
          intro r
          rw [List.mem_map]
          constructor
          · rintro ⟨g, hg, he⟩
            exact ⟨q, hq, ha, nodes, g, hn, hg, by rw [← he, e]⟩
          · rintro ⟨q', hq', _, nodes', g, hs, hg, he⟩
            rw [hn] at hs
            injection hs with hs
            subst hs
            have : q' = q := by rw [hq] at hq'; injection hq' with h; exact h.symm
            subst this
            exact ⟨g, hg, by rw [he, e]⟩
        have hent : ∀ r k, A'.entry r k =
            (A.entry r k).map (decoupled (CondRow m sets c) d r k) := by
          intro r k
          rw [← h]
          simp only
          rw [setRows_entry, zeroColumns_entry]
          cases hE : A.entry r k with
          | none => simp only [Option.map_none, ite_self]
          | some a =>
            obtain ⟨hr, hk⟩ := hA r k a hE
            have i1 := hmem r
            have i2 := hmem k
            generalize hks : (nodes.map fun g => m.total * g + o + c.coord) = ks at i1 i2
            simp only [List.mem_filter, decide_eq_true_eq]
            unfold decoupled
            by_cases h1 : CondRow m sets c r <;> by_cases h2 : CondRow m sets c k <;>
              simp [h1, h2, i1, i2, hr, hk]
        refine ⟨by rw [← h], by rw [← h], ?_, hent⟩
        intro r k a hra
        rw [hent, Option.map_eq_some_iff] at hra
        obtain ⟨b, hb, _⟩ := hra
        obtain ⟨h1, h2⟩ := hA r k b hb
        rw [← h]; exact ⟨h1, h2⟩

theorem matrixConditions_ok {m : Dof.Manager} {sets : NodeSets} {d : ℝ} (cs : List Condition) :
    ∀ {A A' : RankMatrix}, A.WF → matrixConditions m sets cs d A = .ok A' →
    A'.rows = A.rows ∧ A'.cols = A.cols ∧ A'.WF ∧
    ∀ r k, A'.entry r k =
      (A.entry r k).map (decoupled (fun r => ∃ c ∈ cs, CondRow m sets c r) d r k) := by
  induction cs with
  | nil =>
    intro A A' hA h
    have := ok_inj h
    subst this
    refine ⟨rfl, rfl, hA, ?_⟩
    intro r k
    have : decoupled (fun r => ∃ c ∈ ([] : List Condition), CondRow m sets c r) d r k = id := by
      funext a; unfold decoupled; simp
    rw [this, Option.map_id]; rfl
  | cons c cs ih =>
    intro A A' hA h
    obtain ⟨A1, h1, h2⟩ := foldlM_cons_ok.mp h
    obtain ⟨a1, a2, a3, a4⟩ := matrixCondition_ok hA h1
    obtain ⟨b1, b2, b3, b4⟩ := ih a3 h2
    refine ⟨b1.trans a1, b2.trans a2, b3, ?_⟩
    intro r k
    rw [b4, a4, Option.map_map]
    congr 1
    funext a
    rw [Function.comp_apply, decoupled_union]
    congr 1
    funext j
    simp

theorem condRow_iff {m : Dof.Manager} {sets : NodeSets} {cs : List Condition} {r : Nat} :
    (∃ c ∈ cs, CondRow m sets c r) ↔ ConstrainedRow m sets cs r := by
  constructor
  · rintro ⟨c, hc, q, hq, ha, nodes, g, hs, hg, e⟩
    exact ⟨g, q, c.coord, ⟨ha, c, hc, hq, rfl, nodes, hs, hg⟩, e⟩
  · rintro ⟨g, q, k, ⟨ha, c, hc, hq, rfl, nodes, hs, hg⟩, e⟩
    exact ⟨c, hc, q, hq, ha, nodes, g, hs, hg, e⟩

theorem cull_some {owned : List Nat} {sets : NodeSets} {s : String} {nodes : List Nat} :
    cull owned sets s = some nodes ↔
      ∃ all, sets s = some all ∧ nodes = all.filter fun g => decide (g ∈ owned) := by
  unfold cull
  rw [Option.map_eq_some_iff]
  constructor
  · rintro ⟨a, h, e⟩; exact ⟨a, h, e.symm⟩
  · rintro ⟨a, h, e⟩; exact ⟨a, h, e.symm⟩

theorem constrained_cull {m : Dof.Manager} {sets : NodeSets} {cs : List Condition}
    {owned : List Nat} {g : Nat} {q : Dof.Unknown} {k : Nat} :
    Constrained m (cull owned sets) cs g q k ↔ Constrained m sets cs g q k ∧ g ∈ owned := by
  unfold Constrained
  constructor
  · rintro ⟨ha, c, hc, hq, hk, nodes, hs, hg⟩
    obtain ⟨all, hall, e⟩ := cull_some.mp hs
    subst e
    rw [List.mem_filter, decide_eq_true_eq] at hg
    exact ⟨⟨ha, c, hc, hq, hk, all, hall, hg.1⟩, hg.2⟩
  · rintro ⟨⟨ha, c, hc, hq, hk, all, hall, hg⟩, ho⟩
    refine ⟨ha, c, hc, hq, hk, _, cull_some.mpr ⟨all, hall, rfl⟩, ?_⟩
    rw [List.mem_filter, decide_eq_true_eq]
    exact ⟨hg, ho⟩

end Verif.BC
