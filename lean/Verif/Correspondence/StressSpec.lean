import Verif.Correspondence.StressModel
import Verif.Correspondence.Spec
import Mathlib.LinearAlgebra.Matrix.Trace

/-! Specification vocabulary for C81 to C84. -/

noncomputable section

namespace Verif.Correspondence

open Verif Verif.Neigh Verif.Mech Verif.Tensor Matrix

/-- Mean stress. -/
def mean (s : Mat) : ℝ := s.trace / 3

/-- Deviatoric part. -/
def dev (s : Mat) : Mat := s - mean s • (1 : Mat)

/-- Double contraction of two matrices. -/
def ip (a b : Mat) : ℝ := ∑ i, ∑ j, a i j * b i j

/-- Frobenius norm. -/
def norm9 (a : Mat) : ℝ := Real.sqrt (ip a a)

/-- Von Mises stress. -/
def vonMises (s : Mat) : ℝ := Real.sqrt (3 / 2) * norm9 (dev s)

/-- Hooke's law with bulk and shear modulus for a strain (or strain increment). -/
def hooke (bulk shear : ℝ) (e : Mat) : Mat :=
  (2 * shear) • e + ((bulk - 2 / 3 * shear) * e.trace) • (1 : Mat)

/-- The plastic strain increment of a step with total strain increment `e` that took the stress from
`s` to `s'`: the part of the deviatoric strain increment that did not change the deviatoric stress. -/
def plasticStrain (shear : ℝ) (e s s' : Mat) : Mat := dev e - (1 / (2 * shear)) • (dev s' - dev s)

end Verif.Correspondence
