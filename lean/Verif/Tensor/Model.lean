import Mathlib.Data.Real.Basic

/-!
# Three by three matrices (model)

Models the small matrix functions of src/materials/correspondence.cxx.  Matrices are stored in row
order; a result that overlaps an argument is not modelled, except that `TransposeMatrix` behaves
the same then.
-/

namespace Verif.Tensor

/-- A 3x3 matrix in the order XX XY XZ YX YY YZ ZX ZY ZZ.
Models the arrays of nine numbers, src/materials/correspondence.cxx:161-165. -/
@[ext] structure M9 where
  xx : ℝ
  xy : ℝ
  xz : ℝ
  yx : ℝ
  yy : ℝ
  yz : ℝ
  zx : ℝ
  zy : ℝ
  zz : ℝ

/-- The nine zeros.
Models src/materials/correspondence.cxx:96-104, 854-859, 989-991. -/
def zero : M9 := ⟨0, 0, 0, 0, 0, 0, 0, 0, 0⟩

/-- `determinant`.
Models src/materials/correspondence.cxx:83-85, 92. -/
def determinant (m : M9) : ℝ :=
  m.xx * (m.yy * m.zz - m.yz * m.zy) - m.xy * (m.yx * m.zz - m.yz * m.zx)
    + m.xz * (m.yx * m.zy - m.yy * m.zx)

open Classical in
/-- `Invert3by3Matrix`: return code and inverse.
Models src/materials/correspondence.cxx:73-119. -/
noncomputable def invert3 (m : M9) : Nat × M9 :=
  if determinant m = 0 then (1, zero)
  else (0,
    { xx := (m.yy * m.zz - m.yz * m.zy) / determinant m
      xy := -1 * (m.xy * m.zz - m.xz * m.zy) / determinant m
      xz := (m.xy * m.yz - m.xz * m.yy) / determinant m
      yx := -1 * (m.yx * m.zz - m.yz * m.zx) / determinant m
      yy := (m.xx * m.zz - m.zx * m.xz) / determinant m
      yz := -1 * (m.xx * m.yz - m.xz * m.yx) / determinant m
      zx := (m.yx * m.zy - m.yy * m.zx) / determinant m
      zy := -1 * (m.xx * m.zy - m.xy * m.zx) / determinant m
      zz := (m.xx * m.yy - m.xy * m.yx) / determinant m })

/-- `TransposeMatrix`.
Models src/materials/correspondence.cxx:121-143. -/
def transpose (m : M9) : M9 :=
  { xx := m.xx, xy := m.yx, xz := m.zx
    yx := m.xy, yy := m.yy, yz := m.zy
    zx := m.xz, zy := m.yz, zz := m.zz }

/-- The product without transposes.
Models src/materials/correspondence.cxx:167-177. -/
def product (a b : M9) : M9 :=
  { xx := a.xx * b.xx + a.xy * b.yx + a.xz * b.zx
    xy := a.xx * b.xy + a.xy * b.yy + a.xz * b.zy
    xz := a.xx * b.xz + a.xy * b.yz + a.xz * b.zz
    yx := a.yx * b.xx + a.yy * b.yx + a.yz * b.zx
    yy := a.yx * b.xy + a.yy * b.yy + a.yz * b.zy
    yz := a.yx * b.xz + a.yy * b.yz + a.yz * b.zz
    zx := a.zx * b.xx + a.zy * b.yx + a.zz * b.zx
    zy := a.zx * b.xy + a.zy * b.yy + a.zz * b.zy
    zz := a.zx * b.xz + a.zy * b.yz + a.zz * b.zz }

/-- The product with the first factor transposed.
Models src/materials/correspondence.cxx:178-188. -/
def productTN (a b : M9) : M9 :=
  { xx := a.xx * b.xx + a.yx * b.yx + a.zx * b.zx
    xy := a.xx * b.xy + a.yx * b.yy + a.zx * b.zy
    xz := a.xx * b.xz + a.yx * b.yz + a.zx * b.zz
    yx := a.xy * b.xx + a.yy * b.yx + a.zy * b.zx
    yy := a.xy * b.xy + a.yy * b.yy + a.zy * b.zy
    yz := a.xy * b.xz + a.yy * b.yz + a.zy * b.zz
    zx := a.xz * b.xx + a.yz * b.yx + a.zz * b.zx
    zy := a.xz * b.xy + a.yz * b.yy + a.zz * b.zy
    zz := a.xz * b.xz + a.yz * b.yz + a.zz * b.zz }

/-- The product with the second factor transposed.
Models src/materials/correspondence.cxx:189-199. -/
def productNT (a b : M9) : M9 :=
  { xx := a.xx * b.xx + a.xy * b.xy + a.xz * b.xz
    xy := a.xx * b.yx + a.xy * b.yy + a.xz * b.yz
    xz := a.xx * b.zx + a.xy * b.zy + a.xz * b.zz
    yx := a.yx * b.xx + a.yy * b.xy + a.yz * b.xz
    yy := a.yx * b.yx + a.yy * b.yy + a.yz * b.yz
    yz := a.yx * b.zx + a.yy * b.zy + a.yz * b.zz
    zx := a.zx * b.xx + a.zy * b.xy + a.zz * b.xz
    zy := a.zx * b.yx + a.zy * b.yy + a.zz * b.yz
    zz := a.zx * b.zx + a.zy * b.zy + a.zz * b.zz }

/-- The product with both factors transposed.
Models src/materials/correspondence.cxx:200-210. -/
def productTT (a b : M9) : M9 :=
  { xx := a.xx * b.xx + a.yx * b.xy + a.zx * b.xz
    xy := a.xx * b.yx + a.yx * b.yy + a.zx * b.yz
    xz := a.xx * b.zx + a.yx * b.zy + a.zx * b.zz
    yx := a.xy * b.xx + a.yy * b.xy + a.zy * b.xz
    yy := a.xy * b.yx + a.yy * b.yy + a.zy * b.yz
    yz := a.xy * b.zx + a.yy * b.zy + a.zy * b.zz
    zx := a.xz * b.xx + a.yz * b.xy + a.zz * b.xz
    zy := a.xz * b.yx + a.yz * b.yy + a.zz * b.yz
    zz := a.xz * b.zx + a.yz * b.zy + a.zz * b.zz }

/-- All entries times a number.
Models src/materials/correspondence.cxx:213-214. -/
def scale (alpha : ℝ) (m : M9) : M9 :=
  { xx := m.xx * alpha, xy := m.xy * alpha, xz := m.xz * alpha
    yx := m.yx * alpha, yy := m.yy * alpha, yz := m.yz * alpha
    zx := m.zx * alpha, zy := m.zy * alpha, zz := m.zz * alpha }

/-- The four cases of `MatrixMultiply`.
Models src/materials/correspondence.cxx:167-210. -/
def productOf (transA transB : Bool) (a b : M9) : M9 :=
  match transA, transB with
  | false, false => product a b
  | true, false => productTN a b
  | false, true => productNT a b
  | true, true => productTT a b

open Classical in
/-- `MatrixMultiply`.
Models src/materials/correspondence.cxx:145-216. -/
noncomputable def matrixMultiply (transA transB : Bool) (alpha : ℝ) (a b : M9) : M9 :=
  if alpha ≠ 1 then scale alpha (productOf transA transB a b) else productOf transA transB a b

end Verif.Tensor
