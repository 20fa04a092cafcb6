import Verif.Balance.Moves

/-!
# C128: load balancing keeps the points
-/

namespace Verif.Balance

open Verif Verif.Neigh

/-- The points of processor `q` after load balancing. -/
def newPoints (P : Plan) (pts : Nat → List Pt) (origin : Nat → List (Nat × Nat)) (q : Nat) : List Pt :=
  staying (pts q) ((P.exports q).map Prod.fst) ++ arriving pts (origin q)

/-- **C128.** After load balancing every processor holds the points that were not sent away, in their order, followed by
those that it received, all with the coordinates, volumes and neighbors that they had on their old processors; the list
of neighbors has one entry for every point, in their order and without gaps. -/
theorem C128_exact (P : Plan) (n dim : Nat) (gs : Nat → GridData) (pts : Nat → List Pt)
    (origin : Nat → List (Nat × Nat)) (hz : Keeps P n gs pts origin) (hh : ∀ p < n, Holds (gs p) (pts p))
    (hd : ∀ p < n, (gs p).dim = dim) (hu : ∀ p < n, (gs p).unPack = true) (q : Nat) (hq : q < n) :
    ∃ g, balance P q (gs q) = .ok g ∧ Holds g (newPoints P pts origin q) ∧ g.dim = dim ∧
      g.size = g.nbs.length ∧ g.nbs = encode ((newPoints P pts origin q).map Pt.nbs) ∧
      g.ptrs = offsets ((newPoints P pts origin q).map Pt.nbs) := by
  have hpack : ∀ p < n, ∃ buf, packOn P p (gs p) = .ok (marked (gs p) ((P.exports p).map Prod.fst), buf) ∧
      ∀ (j : Nat) e i a, (P.exports p)[j]? = some e → (P.sendIdx p)[j]? = some i → (pts p)[e.1]? = some a →
        slice buf i (width (gs p).dim a) = .ok (pointWords a) := fun p hp =>
    packOn_ok (hh p hp) (fun e he => (hz.valid p hp e he).1) (hz.room p hp) (hz.apart p hp)
  have hex : ∀ k ∈ (P.exports q).map Prod.fst, k < (pts q).length := by
    intro k hk
    obtain ⟨e, he, rfl⟩ := List.mem_map.mp hk
    exact (hz.valid q hq e he).1
  have hst : List.Forall₂ (Stands (gs q).dim (P.recvBuf q)) (arriving pts (origin q)) (P.recvIdx q) := by
    refine stands_all (hz.landing q hq) ?_
    intro k o i' ho hi'
    have hmem := (hz.all q hq).mem_iff.mp (List.mem_of_getElem? ho)
    rw [List.mem_flatMap] at hmem
    obtain ⟨p, hp, hmem⟩ := hmem
    obtain ⟨e, he, heo⟩ := List.mem_map.mp hmem
    have hp : p < n := List.mem_range.mp hp
    have he := (List.mem_filter.mp he).1
    obtain ⟨j, hj⟩ := List.mem_iff_getElem?.mp he
    have hjl : j < (P.sendIdx p).length := by
      rw [hz.places p hp]; exact (List.getElem?_eq_some_iff.mp hj).1
    have ha := List.getElem?_eq_getElem (hz.valid p hp e he).1
    obtain ⟨buf, hb, hw⟩ := hpack p hp
    have hi := List.getElem?_eq_getElem hjl
    have h1 := hz.arrives q hq k j p e _ i' _ _ (by rw [heo]; exact ho) hj hi hi' ha hb
    rw [hw j e _ _ hj hi ha, hd p hp] at h1
    rw [← heo]
    refine ⟨_, ha, ?_, ?_⟩
    · rw [hd q hq, ← hd p hp]
      exact (hh p hp).2.2.1 _ (List.mem_of_getElem? ha)
    · rw [hd q hq]; exact h1
  obtain ⟨buf, hb, _⟩ := hpack q hq
  rw [balance, hb]
  simp only [Outcome.ok_bind]
  by_cases hi : P.imports q = []
  · rw [if_pos hi]
    have hnil : arriving pts (origin q) = [] := by
      have := hz.named q hq
      rw [hi] at this
      exact List.map_eq_nil_iff.mp this.symm
    rw [if_pos (by rw [marked]; exact hu q hq)]
    obtain ⟨g, h1, h2, _, h4, h5⟩ := unpack_ok (arr := []) (idx := []) (buf := []) (hh q hq) (hz.once q hq) hex .nil
    rw [newPoints, hnil]
    exact ⟨g, h1, h2, by rw [h4, hd q hq], h5⟩
  · rw [if_neg hi, hz.named q hq]
    obtain ⟨g, h1, h2, h3, h4, h5⟩ := unpack_ok (hh q hq) (hz.once q hq) hex hst
    rw [h1]
    simp only [Outcome.ok_bind]
    rw [if_neg (by rw [h3]; simp)]
    exact ⟨g, rfl, h2, by rw [h4, hd q hq], h5⟩

/-- **C128.** No point is lost and none is doubled: the points of all processors are the same before and after, in
another order. -/
theorem C128_permutation (P : Plan) (n : Nat) (gs : Nat → GridData) (pts : Nat → List Pt)
    (origin : Nat → List (Nat × Nat)) (hz : Keeps P n gs pts origin) :
    ((List.range n).flatMap (newPoints P pts origin)).Perm ((List.range n).flatMap pts) := by
  have hB : ∀ q ∈ List.range n, (arriving pts (origin q)).Perm ((List.range n).flatMap fun p =>
      ((P.exports p).filter fun e => e.2 = q).filterMap fun e => (pts p)[e.1]?) := by
    intro q hq
    refine ((hz.all q (List.mem_range.mp hq)).filterMap _).trans ?_
    rw [List.filterMap_flatMap]
    refine List.Perm.of_eq ?_
    congr 1
    funext p
    rw [List.filterMap_map]
    rfl
  have h1 : ((List.range n).flatMap fun q => arriving pts (origin q)).Perm
      ((List.range n).flatMap fun p => (P.exports p).filterMap fun e => (pts p)[e.1]?) := by
    refine (flatMap_perm hB).trans ((flatMap_comm _ _ _).trans (flatMap_perm ?_))
    intro p hp
    have := (spread n (P.exports p) fun e he => (hz.valid p (List.mem_range.mp hp) e he).2).filterMap
      fun e => (pts p)[e.1]?
    rw [List.filterMap_flatMap] at this
    exact this
  have h2 : ((List.range n).flatMap fun q => staying (pts q) ((P.exports q).map Prod.fst) ++
      (P.exports q).filterMap fun e => (pts q)[e.1]?).Perm ((List.range n).flatMap pts) := by
    refine flatMap_perm fun p hp => ?_
    have hp := List.mem_range.mp hp
    have := stay_or_go (pts p) ((P.exports p).map Prod.fst) (hz.once p hp) (by
      intro k hk
      obtain ⟨e, he, rfl⟩ := List.mem_map.mp hk
      exact (hz.valid p hp e he).1)
    rw [List.filterMap_map] at this
    exact this
  refine ((List.flatMap_append_perm _ _ _).symm.trans ?_).trans h2
  exact (List.Perm.append_left _ h1).trans (List.flatMap_append_perm _ _ _)

/-- **C128.** The size that a point is given in the buffer is the size of its data. -/
theorem C128_size (g : GridData) (pts : List Pt) (h : Holds g pts) (k : Nat) (a : Pt) (hk : pts[k]? = some a) :
    pointSize g k = .ok (2 * g.dim + 2 + (1 + a.nbs.length)) := pointSize_ok h hk

/-- **C128** holds only the first time: a grid that has been balanced before and that only sends points keeps them, so
that they are on two processors. -/
theorem C128_twice_broken (P : Plan) (q : Nat) (g : GridData) (pts : List Pt) (h : Holds g pts)
    (hu : g.unPack = false) (hi : P.imports q = []) (s : GridData × List Nat) (hs : packOn P q g = .ok s) :
    ∃ g', balance P q g = .ok g' ∧ g'.numPoints = pts.length ∧ g'.ids = pts.map Pt.gid := by
  have hs1 : s.1.unPack = false ∧ s.1.numPoints = g.numPoints ∧ s.1.ids = g.ids := by
    rw [packOn] at hs
    by_cases he : P.exports q = []
    · rw [if_pos he] at hs
      injection hs with hs
      subst hs
      exact ⟨hu, rfl, rfl⟩
    · rw [if_neg he, pack] at hs
      obtain ⟨buf, _, hs⟩ := Outcome.bind_eq_ok.mp hs
      injection hs with hs
      subst hs
      exact ⟨hu, rfl, rfl⟩
  refine ⟨s.1, ?_, by rw [hs1.2.1, h.1], by rw [hs1.2.2, h.2.1]⟩
  rw [balance, hs]
  simp only [Outcome.ok_bind]
  rw [if_pos hi]
  rw [if_neg (by rw [hs1.1]; simp)]

/-! ### An example: the second of two processors gets a point of the first -/

def ptA : Pt := ⟨10, [(1, 1)], (2, 2), [11]⟩
def ptB : Pt := ⟨11, [(3, 3)], (4, 4), [10, 12]⟩
def ptC : Pt := ⟨12, [(5, 5)], (6, 6), []⟩

def examplePts : Nat → List Pt
  | 0 => [ptA, ptB]
  | _ => [ptC]

def exampleGrids : Nat → GridData
  | 0 => ⟨1, 2, 5, 0, true, [10, 11], [(1, 1), (3, 3)], [(2, 2), (4, 4)], [1, 11, 2, 10, 12], [0, 2], [false, false]⟩
  | _ => ⟨1, 1, 1, 0, true, [12], [(5, 5)], [(6, 6)], [0], [0], [false]⟩

/-- Point 0 (id 10) of processor 0 goes to processor 1; its data stand at place 1 of the one buffer and at place 2 of
the other. -/
def examplePlan : Plan where
  exports p := if p = 0 then [(0, 1)] else []
  sendIdx p := if p = 0 then [1] else []
  sendBuf _ := [0, 0, 0, 0, 0, 0, 0, 0]
  imports q := if q = 1 then [10] else []
  recvIdx q := if q = 1 then [2] else []
  recvBuf _ := [7, 7, 1, 1, 2, 2, 1, 11]

def exampleOrigin : Nat → List (Nat × Nat)
  | 1 => [(0, 0)]
  | _ => []

theorem example_holds : ∀ p < 2, Holds (exampleGrids p) (examplePts p) := by
  intro p hp
  have : p = 0 ∨ p = 1 := by omega
  rcases this with rfl | rfl
  · refine ⟨rfl, rfl, by decide, rfl, rfl, rfl, ?_, rfl, rfl⟩
    intro k a i hk hi
    have hlt : k < 2 := (List.getElem?_eq_some_iff.mp hk).1
    have : k = 0 ∨ k = 1 := by omega
    rcases this with rfl | rfl
    · injection hk with hk; injection hi with hi; subst hk hi
      exact ⟨[], [2, 10, 12], rfl, rfl⟩
    · injection hk with hk; injection hi with hi; subst hk hi
      exact ⟨[1, 11], [], rfl, rfl⟩
  · refine ⟨rfl, rfl, by decide, rfl, rfl, rfl, ?_, rfl, rfl⟩
    intro k a i hk hi
    have hlt : k < 1 := (List.getElem?_eq_some_iff.mp hk).1
    have : k = 0 := by omega
    subst this
    injection hk with hk; injection hi with hi; subst hk hi
    exact ⟨[], [], rfl, rfl⟩

theorem example_packed : packOn examplePlan 0 (exampleGrids 0) =
    .ok ({ exampleGrids 0 with flags := [true, false], numExport := 1 }, [0, 1, 1, 2, 2, 1, 11, 0]) := by
  rfl

theorem example_keeps : Keeps examplePlan 2 exampleGrids examplePts exampleOrigin := by
  have two : ∀ p < 2, p = 0 ∨ p = 1 := by intro p hp; omega
  have one : ∀ {α : Type} {x y : α} {j : Nat}, [x][j]? = some y → j = 0 ∧ x = y := by
    intro α x y j h
    obtain ⟨hj, he⟩ := List.getElem?_eq_some_iff.mp h
    have hj : j = 0 := by simpa using hj
    subst hj
    exact ⟨rfl, he⟩
  constructor
  · intro p hp; rcases two p hp with rfl | rfl <;> decide
  · intro p hp; rcases two p hp with rfl | rfl <;> decide
  · intro p hp; rcases two p hp with rfl | rfl <;> decide
  · intro p hp j e i a hj hi ha
    rcases two p hp with rfl | rfl
    · obtain ⟨rfl, rfl⟩ := one hj
      obtain ⟨_, rfl⟩ := one hi
      injection ha with ha
      subst ha
      decide
    · simp [examplePlan] at hj
  · intro p hp j j' e i i' a hlt hj hi hi' ha
    rcases two p hp with rfl | rfl
    · obtain ⟨rfl, _⟩ := one hi'
      omega
    · simp [examplePlan] at hj
  · intro q hq; rcases two q hq with rfl | rfl <;> decide
  · intro q hq; rcases two q hq with rfl | rfl <;> decide
  · intro q hq; rcases two q hq with rfl | rfl <;> decide
  · intro q hq k j p e i i' a s hk hj hi hi' ha hs
    rcases two q hq with rfl | rfl
    · simp [exampleOrigin] at hk
    · obtain ⟨rfl, hp⟩ := one hk
      injection hp with hp he
      subst hp
      obtain ⟨rfl, rfl⟩ := one hj
      obtain ⟨_, rfl⟩ := one hi
      obtain ⟨_, rfl⟩ := one hi'
      injection ha with ha
      subst ha
      rw [example_packed] at hs
      injection hs with hs
      subst hs
      rfl

example : ∃ g, balance examplePlan 1 (exampleGrids 1) = .ok g ∧ Holds g [ptC, ptA] ∧ g.dim = 1 ∧
    g.size = g.nbs.length ∧ g.nbs = [0, 1, 11] ∧ g.ptrs = [0, 1] :=
  C128_exact examplePlan 2 1 exampleGrids examplePts exampleOrigin example_keeps example_holds
    (by intro p hp; have : p = 0 ∨ p = 1 := by omega
        rcases this with rfl | rfl <;> rfl)
    (by intro p hp; have : p = 0 ∨ p = 1 := by omega
        rcases this with rfl | rfl <;> rfl) 1 (by decide)

/-- With the flag of a grid that has been balanced before, the point 10 stays on processor 0. -/
example : ∃ g', balance examplePlan 0 { exampleGrids 0 with unPack := false } = .ok g' ∧ g'.numPoints = 2 ∧
    g'.ids = [10, 11] :=
  C128_twice_broken examplePlan 0 _ [ptA, ptB] (example_holds 0 (by decide)) rfl rfl _ rfl

end Verif.Balance
