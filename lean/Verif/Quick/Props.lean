import Verif.Quick.Lemmas

/-!
# C247: the discretization of a generated mesh
-/

namespace Verif.Quick

open Verif Verif.Mech Verif.Neigh

theorem construct_eq {enc : ℝ → Balance.Dbl} {P : Balance.Plan} {I : Input} {h : ℝ} {G : Grid.Generator} {procs : Nat}
    {ds : List Grid.Data} (ht : I.type = "PdQuickGrid") (hf : I.filters = false) (hh : I.horizon = some h)
    (hG : I.generator = .ok G) (hd : G.data procs = .ok ds) :
    construct enc P I procs = (Redist.allOk (balanced enc P ds) (List.range procs) >>= fun gs =>
      Redist.allOk (finish h (gs.map Balance.GridData.numPoints).sum) gs) := by
  rw [construct, if_neg (by rw [ht]; simp), if_neg (by rw [hf]; simp), hh]
  simp only
  rw [hG]
  simp only [Outcome.ok_bind]
  rw [hd]
  simp only [Outcome.ok_bind]

theorem construct_whole {enc : ℝ → Balance.Dbl} {I : Input} {h : ℝ} {G : Grid.Generator} {procs total : Nat}
    {ds : List Grid.Data} {X : Nat → V3} {V : Nat → ℝ} {N : Nat → List Nat} (ht : I.type = "PdQuickGrid")
    (hf : I.filters = false) (hh : I.horizon = some h) (hG : I.generator = .ok G) (hd : G.data procs = .ok ds)
    (hl : ds.length = procs) (hD : Grid.Describes ds total X V N) {P : Balance.Plan} {gs : Nat → Balance.GridData}
    {pts : Nat → List Balance.Pt} {origin : Nat → List (Nat × Nat)} (hm : Migrates enc ds procs P gs pts origin) :
    ∃ out, construct enc P I procs = .ok out ∧ Whole enc h total X V N procs out := by
  obtain ⟨g, out, h1, h2, h3⟩ := whole_ok enc h hl hD hm
  refine ⟨out, ?_, h3⟩
  rw [construct_eq ht hf hh hG hd, h1]
  simp only [Outcome.ok_bind]
  exact h2

theorem generator_box {I : Input} {h : ℝ} {xs ys zs : Grid.Spec} (hh : I.horizon = some h)
    (hb : I.box = some (xs, ys, zs)) : I.generator = Grid.box h xs ys zs (Grid.normOf I.neighborhoodType) := by
  rw [Input.generator, hh]
  simp only
  rw [hb]

theorem generator_cylinder {I : Input} {h : ℝ} {R : Grid.Ring} (hh : I.horizon = some h) (hb : I.box = none)
    (hc : I.cylinder = some R) : I.generator = Grid.cylinder h R (Grid.normOf I.neighborhoodType) := by
  rw [Input.generator, hh]
  simp only
  rw [hb]
  simp only
  rw [hc]

/-- **C247.** The discretization of a box with spherical neighborhoods, on at most as many processors as there are
cells: the data are generated, and however they are moved in load balancing, a discretization is made in which every
cell is a point of one processor, at the middle of the cell and with its volume, and has as neighbors, each once, the
other points nearer than the horizon. -/
theorem C247_box (enc : ℝ → Balance.Dbl) (I : Input) (h : ℝ) (xs ys zs : Grid.Spec) (procs : Nat)
    (ht : I.type = "PdQuickGrid") (hf : I.filters = false) (hn : I.neighborhoodType = some "Spherical")
    (hh : I.horizon = some h) (hb : I.box = some (xs, ys, zs)) (h0 : 0 ≤ h) (hx : 0 < xs.length)
    (hy : 0 < ys.length) (hz : 0 < zs.length) (hp : 0 < procs) (hle : procs ≤ xs.n * ys.n * zs.n) :
    ∃ G ds X V N, I.generator = .ok G ∧ G.data procs = .ok ds ∧ Grid.BoxMesh xs ys zs ds X V N ∧
      (∀ p < procs, ∃ d, Grid.deliver ds p = some d ∧ 0 < d.gids.length) ∧
      (∀ g, g < xs.n * ys.n * zs.n → ∀ g', (N g).count g' =
        if g' < xs.n * ys.n * zs.n ∧ g' ≠ g ∧ Grid.distance (X g) (X g') < h then 1 else 0) ∧
      ∀ P gs pts origin, Migrates enc ds procs P gs pts origin →
        ∃ out, construct enc P I procs = .ok out ∧ Whole enc h (xs.n * ys.n * zs.n) X V N procs out := by
  have hpos : 0 < xs.n * ys.n * zs.n := lt_of_lt_of_le hp hle
  have nz : 0 < zs.n := Nat.pos_of_mul_pos_left hpos
  have nxy : 0 < xs.n * ys.n := Nat.pos_of_mul_pos_right hpos
  have ny : 0 < ys.n := Nat.pos_of_mul_pos_left nxy
  have nx : 0 < xs.n := Nat.pos_of_mul_pos_right nxy
  obtain ⟨G, ds, hG, hd⟩ := Grid.C113_defined (Grid.normOf (some "Spherical")) h0 hx hy hz nx ny nz hp
  have hG' : I.generator = .ok G := by rw [generator_box hh hb, hn]; exact hG
  obtain ⟨hl, _⟩ := Grid.C113_cells hG hd
  obtain ⟨X, V, N, hM, hN⟩ := Grid.C114_spherical hG hd h0 hx hy hz
  have htot : G.total = xs.n * ys.n * zs.n := by
    obtain ⟨_, _, _, _, _, _, eG⟩ := Grid.box_eq hG
    rw [eG]
    rfl
  refine ⟨G, ds, X, V, N, hG', hd, hM, ?_, hN, ?_⟩
  · intro p hpp
    obtain ⟨d, _, h2, h3, _⟩ := Grid.C113_delivered hd (by rw [htot]; exact hle) hpp
    exact ⟨d, h2, h3⟩
  · intro P gs pts origin hm
    exact construct_whole ht hf hh hG' hd hl hM.describes hm

/-- **C247.** The same for a box with any neighborhoods and for a cylinder: what has been generated (`X`, `V` and `N`)
is what the discretization holds, whatever load balancing does. -/
theorem C247_balanced (enc : ℝ → Balance.Dbl) (I : Input) (h : ℝ) (G : Grid.Generator) (procs : Nat)
    (ds : List Grid.Data) (ht : I.type = "PdQuickGrid") (hf : I.filters = false) (hh : I.horizon = some h)
    (hG : I.generator = .ok G) (hd : G.data procs = .ok ds) :
    ∃ X V N, Grid.Describes ds G.total X V N ∧
      ∀ P gs pts origin, Migrates enc ds procs P gs pts origin →
        ∃ out, construct enc P I procs = .ok out ∧ Whole enc h G.total X V N procs out := by
  have hl : ds.length = procs := by
    obtain ⟨counts, hc, hl, _, _⟩ := Grid.data_spec hd
    rw [← (Grid.cellsPerProc_sum hc).2.1, ← hl, List.length_map]
  have hD := Grid.data_describes hd
  exact ⟨_, _, _, hD, fun P gs pts origin hm => construct_whole ht hf hh hG hd hl hD hm⟩

/-- **C247.** Cylinders: with the points of C116, about the z axis wherever the center is. -/
theorem C247_cylinder (enc : ℝ → Balance.Dbl) (I : Input) (h : ℝ) (R : Grid.Ring) (procs : Nat)
    (ds : List Grid.Data) (G : Grid.Generator) (ht : I.type = "PdQuickGrid") (hf : I.filters = false)
    (hh : I.horizon = some h) (hb : I.box = none) (hc : I.cylinder = some R) (ho : R.inner ≤ R.outer)
    (hG : I.generator = .ok G) (hd : G.data procs = .ok ds) :
    ∃ rays layers X V N, Grid.CylinderMesh R rays layers ds X V N ∧
      ∀ P gs pts origin, Migrates enc ds procs P gs pts origin →
        ∃ out, construct enc P I procs = .ok out ∧ Whole enc h (R.rings * rays * layers) X V N procs out := by
  have hG' := hG
  rw [generator_cylinder hh hb hc] at hG'
  obtain ⟨hl, rays, layers, X, V, N, _, _, hM⟩ := Grid.C116_cells_partial hG' hd ho
  exact ⟨rays, layers, X, V, N, hM, fun P gs pts origin hm => construct_whole ht hf hh hG hd hl hM.describes hm⟩

/-- **C247.** Other types, bond filters, a horizon that varies and input without a mesh generator are refused on any
number of processors; the last two by the choice of the mesh generator. -/
theorem C247_refused (enc : ℝ → Balance.Dbl) (P : Balance.Plan) (I : Input) (procs : Nat)
    (h : I.type ≠ "PdQuickGrid" ∨ I.filters = true ∨ I.horizon = none ∨ I.box = none ∧ I.cylinder = none) :
    construct enc P I procs = .fail .runtimeError ∧
    (I.horizon = none ∨ I.box = none ∧ I.cylinder = none → I.generator = .fail .runtimeError) := by
  refine ⟨?_, fun h' => ?_⟩
  swap
  · rw [Input.generator]
    cases h3 : I.horizon with
    | none => rfl
    | some r =>
      rcases h' with h' | ⟨ha, hb⟩
      · rw [h3] at h'; cases h'
      · simp only
        rw [ha]
        simp only
        rw [hb]
  rw [construct]
  by_cases h1 : I.type ≠ "PdQuickGrid"
  · rw [if_pos h1]
  · rw [if_neg h1]
    by_cases h2 : I.filters = true
    · rw [if_pos h2]
    · rw [if_neg h2]
      cases h3 : I.horizon with
      | none => rfl
      | some r =>
        rcases h with h | h | h | ⟨ha, hb⟩
        · exact absurd h h1
        · exact absurd h h2
        · rw [h3] at h; cases h
        · have : I.generator = .fail .runtimeError := by
            rw [Input.generator, h3]
            simp only
            rw [ha]
            simp only
            rw [hb]
          simp only
          rw [this]
          rfl

/-- **C247** fails with more processors than cells (and more than two): no discretization is made, whatever load
balancing does, as a processor uses grid data that were never filled. -/
theorem C247_too_many_broken (enc : ℝ → Balance.Dbl) (P : Balance.Plan) (I : Input) (h : ℝ) (G : Grid.Generator)
    (procs : Nat) (ds : List Grid.Data) (ht : I.type = "PdQuickGrid") (hf : I.filters = false)
    (hh : I.horizon = some h) (hG : I.generator = .ok G) (hd : G.data procs = .ok ds) (hp : G.total < procs)
    (h2 : 2 < procs) (out : List Part) : construct enc P I procs ≠ .ok out := by
  intro hc
  rw [construct_eq ht hf hh hG hd, Outcome.bind_eq_ok] at hc
  obtain ⟨gs, hg, _⟩ := hc
  rw [Redist.allOk_iff] at hg
  obtain ⟨hl, hall⟩ := List.forall₂_iff_get.mp hg
  have := hall 1 (by simp; omega) (by rw [← hl]; simp; omega)
  simp only [List.get_eq_getElem, List.getElem_range] at this
  rw [balanced, Grid.C113_too_many hd hp (by omega) (by omega)] at this
  cases this

/-! ### An example: a box on two processors, of which the first sends its first point to the second -/

/-- A box of 3 by 2 by 2 cells. -/
noncomputable def demoInput : Input :=
  ⟨"PdQuickGrid", false, some "Spherical", some (3 / 2), some (Grid.exX, Grid.exY, Grid.exY), none⟩

/-- Points are moved as in `moveFirst`. -/
theorem demo_migrates (enc : ℝ → Balance.Dbl) {ds : List Grid.Data} {total : Nat} {X : Nat → V3} {V : Nat → ℝ}
    {N : Nat → List Nat} (hD : Grid.Describes ds total X V N)
    (hd : ∀ p < 2, ∃ d, Grid.deliver ds p = some d ∧ 0 < d.gids.length) :
    ∃ P gs pts origin, Migrates enc ds 2 P gs pts origin ∧ P.exports 0 = [(0, 1)] := by
  obtain ⟨d0, e0, p0⟩ := hd 0 (by omega)
  obtain ⟨d1, e1, _⟩ := hd 1 (by omega)
  have hgr : ∀ p < 2, ∃ d, Grid.deliver ds p = some d ∧
      (if p = 0 then gridData enc d0 else gridData enc d1) = gridData enc d := by
    intro p hp
    have : p = 0 ∨ p = 1 := by omega
    rcases this with rfl | rfl
    · exact ⟨d0, e0, rfl⟩
    · exact ⟨d1, e1, rfl⟩
  have hho : ∀ p < 2, Balance.Holds (if p = 0 then gridData enc d0 else gridData enc d1)
      (if p = 0 then d0.gids.map (cell enc X V N) else d1.gids.map (cell enc X V N)) := by
    have one : ∀ {p d}, Grid.deliver ds p = some d → Balance.Holds (gridData enc d) (d.gids.map (cell enc X V N)) := by
      intro p d e
      have hm := List.mem_of_getElem? (deliver_get e)
      exact gridData_holds enc (hD.x d hm) (hD.volume d hm) (hD.neighborhood d hm) (hD.neighborhoodPtr d hm)
    intro p hp
    have : p = 0 ∨ p = 1 := by omega
    rcases this with rfl | rfl
    · exact one e0
    · exact one e1
  obtain ⟨g, rest, hg⟩ : ∃ g rest, d0.gids = g :: rest := by
    cases hc : d0.gids with
    | nil => rw [hc] at p0; simp at p0
    | cons g rest => exact ⟨g, rest, rfl⟩
  refine ⟨_, _, _, _, ⟨hgr, hho, moveFirst_keeps (a := cell enc X V N g) (rest := rest.map (cell enc X V N))
    (le_refl 2) hho ?_⟩, rfl⟩
  simp [hg]

example (enc : ℝ → Balance.Dbl) : ∃ P out X V N, P.exports 0 = [(0, 1)] ∧ construct enc P demoInput 2 = .ok out ∧
    Whole enc (3 / 2) 12 X V N 2 out := by
  obtain ⟨G, ds, X, V, N, _, _, hM, hdel, _, hall⟩ := C247_box enc demoInput (3 / 2) Grid.exX Grid.exY Grid.exY 2 rfl
    rfl rfl rfl rfl (by norm_num) (by norm_num [Grid.exX]) (by norm_num [Grid.exY]) (by norm_num [Grid.exY])
    (by norm_num) (by norm_num [Grid.exX, Grid.exY])
  obtain ⟨P, gs, pts, origin, hm, he⟩ := demo_migrates enc hM.describes fun p hp => hdel p hp
  obtain ⟨out, h1, h2⟩ := hall P gs pts origin hm
  refine ⟨P, out, X, V, N, he, h1, ?_⟩
  have : Grid.exX.n * Grid.exY.n * Grid.exY.n = 12 := by norm_num [Grid.exX, Grid.exY]
  rw [this] at h2
  exact h2

/-- On 13 processors the box of 12 cells is not discretized. -/
example (enc : ℝ → Balance.Dbl) (P : Balance.Plan) (out : List Part) : construct enc P demoInput 13 ≠ .ok out := by
  obtain ⟨G, ds, hG, hd⟩ := Grid.C113_defined (xs := Grid.exX) (ys := Grid.exY) (zs := Grid.exY) (h := 3 / 2)
    (Grid.normOf (some "Spherical")) (procs := 13) (by norm_num) (by norm_num [Grid.exX]) (by norm_num [Grid.exY])
    (by norm_num [Grid.exY]) (by norm_num [Grid.exX]) (by norm_num [Grid.exY]) (by norm_num [Grid.exY]) (by norm_num)
  have htot : G.total = 12 := by
    obtain ⟨_, _, _, _, _, _, eG⟩ := Grid.box_eq hG
    rw [eG]
    norm_num [Grid.Generator.total, Grid.exX, Grid.exY]
  exact C247_too_many_broken enc P demoInput (3 / 2) G 13 ds rfl rfl rfl hG hd (by rw [htot]; norm_num) (by norm_num)
    out

/-- A pipe on two processors. -/
example (enc : ℝ → Balance.Dbl) : ∃ G ds, (⟨"PdQuickGrid", false, none, some 1, none, some Grid.pipe⟩ : Input).generator =
    .ok G ∧ G.data 2 = .ok ds ∧ ∃ rays layers X V N, Grid.CylinderMesh Grid.pipe rays layers ds X V N ∧
      ∀ P gs pts origin, Migrates enc ds 2 P gs pts origin →
        ∃ out, construct enc P ⟨"PdQuickGrid", false, none, some 1, none, some Grid.pipe⟩ 2 = .ok out ∧
          Whole enc 1 (Grid.pipe.rings * rays * layers) X V N 2 out := by
  obtain ⟨G, ds, hG, hd⟩ := Grid.C116_defined (h := 1) (R := Grid.pipe) (Grid.normOf none) (procs := 2)
    (by norm_num) (by norm_num [Grid.pipe]) (by norm_num [Grid.pipe])
    (by norm_num [Grid.pipe]) (by norm_num [Grid.pipe]) (by norm_num)
  have hG' : (⟨"PdQuickGrid", false, none, some 1, none, some Grid.pipe⟩ : Input).generator = .ok G :=
    (generator_cylinder rfl rfl rfl).trans hG
  exact ⟨G, ds, hG', hd, C247_cylinder enc _ 1 Grid.pipe 2 ds G rfl rfl rfl rfl rfl (by norm_num [Grid.pipe]) hG' hd⟩

end Verif.Quick
