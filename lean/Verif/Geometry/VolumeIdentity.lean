import Verif.Geometry.VolumeLemmas

/-! Helper lemmas for C118, continued: the sum of the tetrahedra is the integral. -/

noncomputable section

namespace Verif.Geometry

open Verif Verif.Mech

theorem tetVol_translate (n : Fin 8 → V3) (o : V3) (t : Fin 8 × Fin 8 × Fin 6) :
    tetVol (fun i => n i + o) t = tetVol n t := by
  have hc : hexCenter (fun i => n i + o) = hexCenter n + o := by
    unfold hexCenter
    rw [Finset.sum_add_distrib, smul_add]
    congr 1
    rw [Finset.sum_const, Finset.card_univ, Fintype.card_fin]
    funext j
    simp only [Pi.smul_apply, smul_eq_mul, nsmul_eq_mul, Pi.mul_apply]
    norm_num
    ring
  have hf : face (fun i => n i + o) t.2.2 = face n t.2.2 + o := by
    obtain ⟨a, b, f⟩ := t
    funext j
    fin_cases f <;> simp only [face, mid4, Pi.add_apply, Fin.zero_eta, Fin.mk_one, Fin.reduceFinMk] <;> ring
  unfold tetVol
  rw [hc, hf]
  simp only [add_sub_add_right_eq_sub]

theorem fluxes_translate (n : Fin 8 → V3) (o : V3) : fluxes (fun i => n i + o) = fluxes n := by
  have h1 := volume_flux (fun i => n i + o)
  have h2 := volume_flux n
  have : tetVol (fun i => n i + o) = tetVol n := funext (tetVol_translate n o)
  rw [this] at h1
  linarith

theorem fluxes_zero (c1 c2 c3 c4 c5 c6 c7 : V3) :
    fluxes (ofCoef 0 c1 c2 c3 c4 c5 c6 c7) =
      triple c1 (c1 + c3 + c6) c3 +
      flux c1 (c1 + c2 + c4) (c1 + c2 + c3 + c4 + c5 + c6 + c7) (c1 + c3 + c6) +
      flux (c1 + c2 + c4) c2 (c2 + c3 + c5) (c1 + c2 + c3 + c4 + c5 + c6 + c7) +
      triple c3 (c2 + c3 + c5) c2 + triple c2 (c1 + c2 + c4) c1 +
      flux c3 (c1 + c3 + c6) (c1 + c2 + c3 + c4 + c5 + c6 + c7) (c2 + c3 + c5) := by
  unfold fluxes ofCoef
  simp only [Matrix.cons_val_zero, Matrix.cons_val_one, Matrix.cons_val, zero_add]
  unfold flux triple
  simp only [Pi.zero_apply]
  ring

theorem volume_integral (n : Fin 8 → V3) : (triangles.map (tetVol n)).sum = hexahedronVolume n := by
  rw [volume_flux, eq_ofCoef n]
  generalize n 0 = c0
  generalize n 1 - c0 = c1
  generalize n 3 - c0 = c2
  generalize n 4 - c0 = c3
  generalize n 2 - n 1 - n 3 + c0 = c4
  generalize n 7 - n 3 - n 4 + c0 = c5
  generalize n 5 - n 1 - n 4 + c0 = c6
  generalize n 6 - n 2 - n 7 - n 5 + n 1 + n 3 + n 4 - c0 = c7
  have e : ofCoef c0 c1 c2 c3 c4 c5 c6 c7 = fun i => ofCoef 0 c1 c2 c3 c4 c5 c6 c7 i + c0 := by
    funext i j
    unfold ofCoef
    fin_cases i <;>
      simp only [Matrix.cons_val_zero, Matrix.cons_val_one, Matrix.cons_val, Pi.add_apply, Pi.zero_apply,
        Fin.zero_eta, Fin.mk_one, Fin.reduceFinMk] <;> ring
  rw [integral_jac, e, fluxes_translate, fluxes_zero]
  unfold jac flux triple
  simp only [Pi.add_apply, Pi.smul_apply, smul_eq_mul]
  generalize c1 0 = x1
  generalize c2 0 = x2
  generalize c3 0 = x3
  generalize c4 0 = x4
  generalize c5 0 = x5
  generalize c6 0 = x6
  generalize c7 0 = x7
  generalize c1 1 = y1
  generalize c2 1 = y2
  generalize c3 1 = y3
  generalize c4 1 = y4
  generalize c5 1 = y5
  generalize c6 1 = y6
  generalize c7 1 = y7
  generalize c1 2 = z1
  generalize c2 2 = z2
  generalize c3 2 = z3
  generalize c4 2 = z4
  generalize c5 2 = z5
  generalize c6 2 = z6
  generalize c7 2 = z7
  ring

end Verif.Geometry
