import Verif.GeoRot
import Verif.GeoSpec

/-! # What rotations are -/

namespace Verif.Geo

/-- A rotation, or rigid transformation: the columns of the 3x3 part are orthonormal and right-handed, the last row is 0 0 0 1. -/
structure Rigid {K : Type} [CommRing K] (a : M44 K) : Prop where
  affine : a.Affine
  x : a.m00 * a.m00 + a.m01 * a.m01 + a.m02 * a.m02 = 1
  y : a.m10 * a.m10 + a.m11 * a.m11 + a.m12 * a.m12 = 1
  z : a.m20 * a.m20 + a.m21 * a.m21 + a.m22 * a.m22 = 1
  xy : a.m00 * a.m10 + a.m01 * a.m11 + a.m02 * a.m12 = 0
  xz : a.m00 * a.m20 + a.m01 * a.m21 + a.m02 * a.m22 = 0
  yz : a.m10 * a.m20 + a.m11 * a.m21 + a.m12 * a.m22 = 0
  det : a.determinant = 1

/-- Rodrigues' formula: the rotation of `p` around the axis `a` by the angle with the cosine `c` and the sine `s`. -/
def rotated {K : Type} [CommRing K] (a : V3 K) (c s : K) (p : V3 K) : V3 K := ((p.smul c).add ((a.cross p).smul s)).add (a.smul ((1 - c) * a.dot p))

/-- The product a decomposition stands for: "translation * rotation [x*y*z order] * scale" (FMMatrix44.cpp 109). -/
noncomputable def composeXYZ (p : Parts) : M44 ℝ :=
  ((M44.translation p.translation).mul (((xAxisRotationMatrix p.rotation.x).mul (yAxisRotationMatrix p.rotation.y)).mul (zAxisRotationMatrix p.rotation.z))).mul
    (M44.scale (V3.smul p.inverted p.scale))

/-- Matrices that are a rotation, an invertible scale and possibly a reflection, and a translation, without shear: the columns are orthogonal and
their lengths are not below the tolerance. -/
structure Decomposable (m : M44 ℝ) : Prop where
  affine : m.Affine
  xy : m.m00 * m.m10 + m.m01 * m.m11 + m.m02 * m.m12 = 0
  xz : m.m00 * m.m20 + m.m01 * m.m21 + m.m02 * m.m22 = 0
  yz : m.m10 * m.m20 + m.m11 * m.m21 + m.m12 * m.m22 = 0
  x : tolerance ≤ √(m.m00 * m.m00 + m.m01 * m.m01 + m.m02 * m.m02)
  y : tolerance ≤ √(m.m10 * m.m10 + m.m11 * m.m11 + m.m12 * m.m12)
  z : tolerance ≤ √(m.m20 * m.m20 + m.m21 * m.m21 + m.m22 * m.m22)

/-- The unit vector in the direction of a vector; the X axis for the zero vector. -/
noncomputable def unitAxis (a : V3 ℝ) : V3 ℝ := if a = ⟨0, 0, 0⟩ then ⟨1, 0, 0⟩ else a.smul (1 / √(a.x * a.x + a.y * a.y + a.z * a.z))

/-- Vectors taken for the same one: all components differ by less than 0.0001. -/
def Near (a b : V3 ℝ) : Prop := |a.x - b.x| < 1 / 10000 ∧ |a.y - b.y| < 1 / 10000 ∧ |a.z - b.z| < 1 / 10000

end Verif.Geo
