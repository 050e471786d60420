import Verif.Geo
import Mathlib.LinearAlgebra.Matrix.NonsingularInverse
import Mathlib.LinearAlgebra.Matrix.Notation

/-! # Matrices in the sense of mathematics

`m[i][j]` is in column `i` and row `j`: matrices act on columns of coordinates. -/

namespace Verif.Geo

open Matrix

variable {K : Type}

/-- The matrix. -/
def M44.toM (a : M44 K) : Matrix (Fin 4) (Fin 4) K :=
  !![a.m00, a.m10, a.m20, a.m30; a.m01, a.m11, a.m21, a.m31; a.m02, a.m12, a.m22, a.m32; a.m03, a.m13, a.m23, a.m33]

/-- The matrix. -/
def M33.toM (a : M33 K) : Matrix (Fin 3) (Fin 3) K := !![a.m00, a.m10, a.m20; a.m01, a.m11, a.m21; a.m02, a.m12, a.m22]

/-- The column of the components. -/
def V3.toV (a : V3 K) : Fin 3 → K := ![a.x, a.y, a.z]

/-- The column of the components. -/
def V4.toV (a : V4 K) : Fin 4 → K := ![a.x, a.y, a.z, a.w]

/-- The column of a point: the last component is 1. -/
def V3.point [One K] (a : V3 K) : Fin 4 → K := ![a.x, a.y, a.z, 1]

/-- The column of a direction: the last component is 0. -/
def V3.direction [Zero K] (a : V3 K) : Fin 4 → K := ![a.x, a.y, a.z, 0]

/-- Affine matrices have the last row 0 0 0 1. -/
def M44.Affine [Zero K] [One K] (a : M44 K) : Prop := a.m03 = 0 ∧ a.m13 = 0 ∧ a.m23 = 0 ∧ a.m33 = 1

end Verif.Geo
