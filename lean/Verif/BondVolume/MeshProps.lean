import Verif.BondVolume.BoxProps
import Verif.BondVolume.RingProps
import Verif.Grid.CylinderProps

/-! # Volumes of bonds in generated meshes (C238, C239) -/

noncomputable section

namespace Verif.BondVolume

open Verif Verif.Neigh Verif.Mech Verif.Grid
open scoped Classical

/-- C238.  The calculator made from the specifications of a box takes the cells of the mesh of that box: its cells have the
volumes of the points, and the volume of a bond is that of the parts of the neighbor's cell that are within the horizon. -/
theorem C238_mesh (xs ys zs : Spec) (ds : List Data) (X : Nat → V3) (V : Nat → ℝ) (N : Nat → List Nat)
    (hM : BoxMesh xs ys zs ds X V N) (h : ℝ) (hh : 0 ≤ h) (g g' : Nat) (hg : g' < xs.n * ys.n * zs.n) :
    (BoxCalc.ofSpecs xs ys zs h).cellVolume (X g') = V g' ∧
    (BoxCalc.ofSpecs xs ys zs h).volume (X g) (X g') =
      (triples.filter fun a => away (X g)
        (boxPart (xs.length / xs.n) (ys.length / ys.n) (zs.length / zs.n) (X g') a) < h).card * (V g' / 4096) := by
  rw [hM.volume g' hg]
  exact ⟨rfl, C238_value (BoxCalc.ofSpecs xs ys zs h) hh (X g) (X g')⟩

/-- C239.  The calculator made from the specifications of a cylinder about the z axis takes the cells of the mesh of that
cylinder: its cells have the volumes of the points, and the volume of a bond is that of the parts of the neighbor's cell
that are within the horizon.  (For other centers this fails, see `C239_center`; the mesh is about the z axis all the same.) -/
theorem C239_mesh_partial (R : Ring) (rays layers : Nat) (ds : List Data) (X : Nat → V3) (V : Nat → ℝ)
    (N : Nat → List Nat) (hM : CylinderMesh R rays layers ds X V N) (h : ℝ) (hh : 0 ≤ h) (c : V3) (h0 : c 0 = 0)
    (h1 : c 1 = 0) (hin : 0 ≤ R.inner) (ho : R.inner < R.outer) (P : V3) (i j k : Nat) (hi : i < R.rings) (hj : j < rays)
    (hk : k < layers) :
    let C := RingCalc.ofSpecs R.raySpec (ringSpec rays) ⟨layers, R.zStart, R.length⟩ c h
    let g := i + R.rings * (j + rays * k)
    let r := mid R.inner (R.outer - R.inner) R.rings i
    let theta := mid 0 (2 * Real.pi) rays j
    let z := mid R.zStart R.length layers k
    let DR := (R.outer - R.inner) / R.rings
    let Dt := 2 * Real.pi / rays
    let DZ := R.length / layers
    C.cellVolume (X g) = V g ∧
    C.volume P (X g) = ∑ a ∈ triples,
      if away P (polar 0 (r + offset DR a.1) (theta + offset Dt a.2.1) (z + offset DZ a.2.2)) < h
      then (r + offset DR a.1) * (DR / 16) * (Dt / 16) * (DZ / 16) else 0 := by
  intro C g r theta z DR Dt DZ
  have hrings : (0 : ℝ) < R.rings := by exact_mod_cast (by omega : 0 < R.rings)
  have hr : 0 < r := by
    have : 0 < (R.outer - R.inner) / R.rings := div_pos (by linarith) hrings
    simp only [r, mid]
    positivity
  have e1 : C.DR = DR := by
    simp only [C, RingCalc.ofSpecs, Spec.cellSize, Ring.raySpec, DR]
    rw [abs_of_pos (by linarith)]
  have e2 : C.Dtheta = Dt := rfl
  have e3 : C.DZ = DZ := rfl
  have e4 : C.horizon = h := rfl
  have ec : C.c = c := rfl
  have hX : X g = polar C.c r theta z := by
    rw [hM.position i j k hi hj hk, ec, polar, h0, h1, zero_add, zero_add]
  constructor
  · rw [hX, C239_cell_volume C hr, hM.volume i j k hi hj hk, e1, e2, e3]
    simp only [r, DR, Dt, DZ]
    ring
  · rw [hX, C239_value_partial C (by rw [e4]; exact hh) P hr, e1, e2, e3, e4]

/-- A box of 3 by 2 by 2 cells. -/
example : ∃ ds X V N, BoxMesh exX exY exY ds X V N ∧ (BoxCalc.ofSpecs exX exY exY (3 / 2)).cellVolume (X 7) = V 7 := by
  obtain ⟨G, ds, hG, hd⟩ := C113_defined (xs := exX) (ys := exY) (zs := exY) (h := 3 / 2) noOp (procs := 1) (by norm_num)
    (by norm_num [exX]) (by norm_num [exY]) (by norm_num [exY]) (by norm_num [exX]) (by norm_num [exY])
    (by norm_num [exY]) (by norm_num)
  obtain ⟨_, X, V, N, hM⟩ := C113_cells hG hd
  exact ⟨ds, X, V, N, hM, (C238_mesh _ _ _ _ _ _ _ hM _ (by norm_num) 0 7 (by norm_num [exX, exY])).1⟩

/-- A pipe about the z axis. -/
example : ∃ rays layers ds X V N, CylinderMesh pipe rays layers ds X V N ∧ 0 < pipe.rings ∧ pipe.inner < pipe.outer := by
  obtain ⟨G, ds, hG, hd⟩ := C116_defined (h := 1) (R := pipe) (normOf none) (procs := 2)
    (by norm_num) (by norm_num [pipe]) (by norm_num [pipe])
    (by norm_num [pipe]) (by norm_num [pipe]) (by norm_num)
  obtain ⟨_, rays, layers, X, V, N, _, _, hM⟩ := C116_cells_partial hG hd (by norm_num [pipe])
  exact ⟨rays, layers, ds, X, V, N, hM, by norm_num [pipe], by norm_num [pipe]⟩

end Verif.BondVolume
