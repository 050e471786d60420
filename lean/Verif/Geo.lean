import Mathlib.Algebra.Field.Defs
import Mathlib.Order.Defs.LinearOrder
import Mathlib.Algebra.Ring.Defs

/-!
# Model of the vector and matrix classes (FMath/FMVector3.h, FMMatrix44.cpp, FMMatrix33.cpp)

Numbers are elements of a ring or a linearly ordered field: floating-point rounding and overflow are left out. `mij` is the element `m[i][j]`.
-/

namespace Verif.Geo

/-- FMVector3.h 26-169: a vector or point. -/
@[ext] structure V3 (K : Type) where
  x : K
  y : K
  z : K
deriving DecidableEq

/-- FMVector4.h: a vector with four components. -/
structure V4 (K : Type) where
  x : K
  y : K
  z : K
  w : K
deriving DecidableEq

/-- FMMatrix44.h: a 4x4 matrix. -/
@[ext] structure M44 (K : Type) where
  m00 : K
  m01 : K
  m02 : K
  m03 : K
  m10 : K
  m11 : K
  m12 : K
  m13 : K
  m20 : K
  m21 : K
  m22 : K
  m23 : K
  m30 : K
  m31 : K
  m32 : K
  m33 : K
deriving DecidableEq

/-- FMMatrix33.h 23-26: a 3x3 matrix. -/
@[ext] structure M33 (K : Type) where
  m00 : K
  m01 : K
  m02 : K
  m10 : K
  m11 : K
  m12 : K
  m20 : K
  m21 : K
  m22 : K
deriving DecidableEq

section Ring
variable {K : Type} [CommRing K]

/-- FMVector3.h 80: `LengthSquared`. -/
def V3.lengthSquared (a : V3 K) : K := a.x * a.x + a.y * a.y + a.z * a.z

/-- FMVector3.h 175: `operator+`. -/
def V3.add (a b : V3 K) : V3 K := ⟨a.x + b.x, a.y + b.y, a.z + b.z⟩

/-- FMVector3.h 181: `operator-`. -/
def V3.sub (a b : V3 K) : V3 K := ⟨a.x - b.x, a.y - b.y, a.z - b.z⟩

/-- FMVector3.h 193: the negative of a vector. -/
def V3.neg (a : V3 K) : V3 K := ⟨-a.x, -a.y, -a.z⟩

/-- FMVector3.h 199: `operator*`, the dot product. -/
def V3.dot (a b : V3 K) : K := a.x * b.x + a.y * b.y + a.z * b.z

/-- FMVector3.h 211: `operator*` with a number. -/
def V3.smul (a : K) (b : V3 K) : V3 K := ⟨a * b.x, a * b.y, a * b.z⟩

/-- FMVector3.h 223: `operator^`, the cross product. -/
def V3.cross (a b : V3 K) : V3 K := ⟨a.y * b.z - a.z * b.y, a.z * b.x - a.x * b.z, a.x * b.y - a.y * b.x⟩

/-- FMMatrix44.cpp 43-49: `Set`, and the constructors 16-24; the argument is the value of the array at an index. -/
def M44.set (v : Nat → K) : M44 K where
  m00 := v 0
  m01 := v 4
  m02 := v 8
  m03 := v 12
  m10 := v 1
  m11 := v 5
  m12 := v 9
  m13 := v 13
  m20 := v 2
  m21 := v 6
  m22 := v 10
  m23 := v 14
  m30 := v 3
  m31 := v 7
  m32 := v 11
  m33 := v 15

/-- FMMatrix44.cpp 13-14: `Identity`. -/
def M44.identity : M44 K := M44.set fun i => if i = 0 ∨ i = 5 ∨ i = 10 ∨ i = 15 then 1 else 0

/-- FMMatrix44.cpp 60-68: `Transposed`. -/
def M44.transposed (a : M44 K) : M44 K where
  m00 := a.m00
  m01 := a.m10
  m02 := a.m20
  m03 := a.m30
  m10 := a.m01
  m11 := a.m11
  m12 := a.m21
  m13 := a.m31
  m20 := a.m02
  m21 := a.m12
  m22 := a.m22
  m23 := a.m32
  m30 := a.m03
  m31 := a.m13
  m32 := a.m23
  m33 := a.m33

/-- FMMatrix44.cpp 70-77: `TransformCoordinate`. -/
def M44.transformCoordinate (m : M44 K) (c : V3 K) : V3 K where
  x := m.m00 * c.x + m.m10 * c.y + m.m20 * c.z + m.m30
  y := m.m01 * c.x + m.m11 * c.y + m.m21 * c.z + m.m31
  z := m.m02 * c.x + m.m12 * c.y + m.m22 * c.z + m.m32

/-- FMMatrix44.cpp 79-87 and 282-289: `TransformCoordinate` and `operator*` with four components. -/
def M44.transform4 (m : M44 K) (c : V4 K) : V4 K where
  x := m.m00 * c.x + m.m10 * c.y + m.m20 * c.z + m.m30 * c.w
  y := m.m01 * c.x + m.m11 * c.y + m.m21 * c.z + m.m31 * c.w
  z := m.m02 * c.x + m.m12 * c.y + m.m22 * c.z + m.m32 * c.w
  w := m.m03 * c.x + m.m13 * c.y + m.m23 * c.z + m.m33 * c.w

/-- FMMatrix44.cpp 89-96: `TransformVector`. -/
def M44.transformVector (m : M44 K) (v : V3 K) : V3 K where
  x := m.m00 * v.x + m.m10 * v.y + m.m20 * v.z
  y := m.m01 * v.x + m.m11 * v.y + m.m21 * v.z
  z := m.m02 * v.x + m.m12 * v.y + m.m22 * v.z

/-- FMMatrix44.cpp 181-184, FMMatrix33.cpp 73-76: `det2x2`. -/
def det2x2 (a1 a2 b1 b2 : K) : K := a1 * b2 - b1 * a2

/-- FMMatrix44.cpp 187-190: `det3x3`. -/
def det3x3 (a1 a2 a3 b1 b2 b3 c1 c2 c3 : K) : K := a1 * det2x2 b2 b3 c2 c3 - b1 * det2x2 a2 a3 c2 c3 + c1 * det2x2 a2 a3 b2 b3

/-- FMMatrix44.cpp 197-215: the matrix of the cofactors. -/
def M44.cofactors (a : M44 K) : M44 K where
  m00 := det3x3 a.m11 a.m12 a.m13 a.m21 a.m22 a.m23 a.m31 a.m32 a.m33
  m01 := -(det3x3 a.m01 a.m02 a.m03 a.m21 a.m22 a.m23 a.m31 a.m32 a.m33)
  m02 := det3x3 a.m01 a.m02 a.m03 a.m11 a.m12 a.m13 a.m31 a.m32 a.m33
  m03 := -(det3x3 a.m01 a.m02 a.m03 a.m11 a.m12 a.m13 a.m21 a.m22 a.m23)
  m10 := -(det3x3 a.m10 a.m12 a.m13 a.m20 a.m22 a.m23 a.m30 a.m32 a.m33)
  m11 := det3x3 a.m00 a.m02 a.m03 a.m20 a.m22 a.m23 a.m30 a.m32 a.m33
  m12 := -(det3x3 a.m00 a.m02 a.m03 a.m10 a.m12 a.m13 a.m30 a.m32 a.m33)
  m13 := det3x3 a.m00 a.m02 a.m03 a.m10 a.m12 a.m13 a.m20 a.m22 a.m23
  m20 := det3x3 a.m10 a.m11 a.m13 a.m20 a.m21 a.m23 a.m30 a.m31 a.m33
  m21 := -(det3x3 a.m00 a.m01 a.m03 a.m20 a.m21 a.m23 a.m30 a.m31 a.m33)
  m22 := det3x3 a.m00 a.m01 a.m03 a.m10 a.m11 a.m13 a.m30 a.m31 a.m33
  m23 := -(det3x3 a.m00 a.m01 a.m03 a.m10 a.m11 a.m13 a.m20 a.m21 a.m23)
  m30 := -(det3x3 a.m10 a.m11 a.m12 a.m20 a.m21 a.m22 a.m30 a.m31 a.m32)
  m31 := det3x3 a.m00 a.m01 a.m02 a.m20 a.m21 a.m22 a.m30 a.m31 a.m32
  m32 := -(det3x3 a.m00 a.m01 a.m02 a.m10 a.m11 a.m12 a.m30 a.m31 a.m32)
  m33 := det3x3 a.m00 a.m01 a.m02 a.m10 a.m11 a.m12 a.m20 a.m21 a.m22

/-- FMMatrix44.cpp 246-258: `Determinant`. -/
def M44.determinant (a : M44 K) : K :=
  a.m00 * det3x3 a.m11 a.m12 a.m13 a.m21 a.m22 a.m23 a.m31 a.m32 a.m33 + a.m10 * -(det3x3 a.m01 a.m02 a.m03 a.m21 a.m22 a.m23 a.m31 a.m32 a.m33) +
    a.m20 * det3x3 a.m01 a.m02 a.m03 a.m11 a.m12 a.m13 a.m31 a.m32 a.m33 + a.m30 * -(det3x3 a.m01 a.m02 a.m03 a.m11 a.m12 a.m13 a.m21 a.m22 a.m23)

/-- FMMatrix44.cpp 260-280: `operator*`. -/
def M44.mul (a b : M44 K) : M44 K where
  m00 := a.m00 * b.m00 + a.m10 * b.m01 + a.m20 * b.m02 + a.m30 * b.m03
  m01 := a.m01 * b.m00 + a.m11 * b.m01 + a.m21 * b.m02 + a.m31 * b.m03
  m02 := a.m02 * b.m00 + a.m12 * b.m01 + a.m22 * b.m02 + a.m32 * b.m03
  m03 := a.m03 * b.m00 + a.m13 * b.m01 + a.m23 * b.m02 + a.m33 * b.m03
  m10 := a.m00 * b.m10 + a.m10 * b.m11 + a.m20 * b.m12 + a.m30 * b.m13
  m11 := a.m01 * b.m10 + a.m11 * b.m11 + a.m21 * b.m12 + a.m31 * b.m13
  m12 := a.m02 * b.m10 + a.m12 * b.m11 + a.m22 * b.m12 + a.m32 * b.m13
  m13 := a.m03 * b.m10 + a.m13 * b.m11 + a.m23 * b.m12 + a.m33 * b.m13
  m20 := a.m00 * b.m20 + a.m10 * b.m21 + a.m20 * b.m22 + a.m30 * b.m23
  m21 := a.m01 * b.m20 + a.m11 * b.m21 + a.m21 * b.m22 + a.m31 * b.m23
  m22 := a.m02 * b.m20 + a.m12 * b.m21 + a.m22 * b.m22 + a.m32 * b.m23
  m23 := a.m03 * b.m20 + a.m13 * b.m21 + a.m23 * b.m22 + a.m33 * b.m23
  m30 := a.m00 * b.m30 + a.m10 * b.m31 + a.m20 * b.m32 + a.m30 * b.m33
  m31 := a.m01 * b.m30 + a.m11 * b.m31 + a.m21 * b.m32 + a.m31 * b.m33
  m32 := a.m02 * b.m30 + a.m12 * b.m31 + a.m22 * b.m32 + a.m32 * b.m33
  m33 := a.m03 * b.m30 + a.m13 * b.m31 + a.m23 * b.m32 + a.m33 * b.m33

/-- FMMatrix44.cpp 291-311: `operator*` with a number. -/
def M44.scalar (s : K) (a : M44 K) : M44 K where
  m00 := s * a.m00
  m01 := s * a.m01
  m02 := s * a.m02
  m03 := s * a.m03
  m10 := s * a.m10
  m11 := s * a.m11
  m12 := s * a.m12
  m13 := s * a.m13
  m20 := s * a.m20
  m21 := s * a.m21
  m22 := s * a.m22
  m23 := s * a.m23
  m30 := s * a.m30
  m31 := s * a.m31
  m32 := s * a.m32
  m33 := s * a.m33

/-- FMMatrix44.cpp 313-321: `TranslationMatrix`. -/
def M44.translation (t : V3 K) : M44 K := ⟨1, 0, 0, 0, 0, 1, 0, 0, 0, 0, 1, 0, t.x, t.y, t.z, 1⟩

/-- FMMatrix44.cpp 385-390: `ScaleMatrix`. -/
def M44.scale (s : V3 K) : M44 K := { M44.identity with m00 := s.x, m11 := s.y, m22 := s.z }

/-- FMMatrix44.cpp 328-348: `AxisRotationMatrix`, given the axis `a`, the cosine `cT` and the sine `sT` of the angle. -/
def M44.axisRotation (a : V3 K) (cT sT : K) : M44 K where
  m00 := a.x * a.x + (a.y * a.y + a.z * a.z) * cT
  m01 := a.x * a.y * (1 - cT) + a.z * sT
  m02 := a.x * a.z * (1 - cT) - a.y * sT
  m03 := 0
  m10 := a.x * a.y * (1 - cT) - a.z * sT
  m11 := a.y * a.y + (a.x * a.x + a.z * a.z) * cT
  m12 := a.y * a.z * (1 - cT) + a.x * sT
  m13 := 0
  m20 := a.x * a.z * (1 - cT) + a.y * sT
  m21 := a.y * a.z * (1 - cT) - a.x * sT
  m22 := a.z * a.z + (a.x * a.x + a.y * a.y) * cT
  m23 := 0
  m30 := 0
  m31 := 0
  m32 := 0
  m33 := 1

/-- FMMatrix44.cpp 351-357: `XAxisRotationMatrix`, given the cosine and the sine. -/
def M44.xRotation (c s : K) : M44 K := { M44.identity with m11 := c, m22 := c, m12 := s, m21 := -s }

/-- FMMatrix44.cpp 359-365: `YAxisRotationMatrix`, given the cosine and the sine. -/
def M44.yRotation (c s : K) : M44 K := { M44.identity with m00 := c, m22 := c, m20 := s, m02 := -s }

/-- FMMatrix44.cpp 367-373: `ZAxisRotationMatrix`, given the cosine and the sine. -/
def M44.zRotation (c s : K) : M44 K := { M44.identity with m00 := c, m11 := c, m01 := s, m10 := -s }

/-- FMMatrix33.cpp 11-19: `identity` and the constructor from an array. -/
def M33.identity : M33 K := ⟨1, 0, 0, 0, 1, 0, 0, 0, 1⟩

/-- FMMatrix33.cpp 38-45: `Transposed`. -/
def M33.transposed (a : M33 K) : M33 K := ⟨a.m00, a.m10, a.m20, a.m01, a.m11, a.m21, a.m02, a.m12, a.m22⟩

/-- FMMatrix33.cpp 47-54: `RotationMatrix`, given the cosine and the sine. -/
def M33.rotation (c s : K) : M33 K := { M33.identity with m00 := c, m11 := c, m01 := -s, m10 := s }

/-- FMMatrix33.cpp 56-61: `TranslationMatrix`. -/
def M33.translation (tx ty : K) : M33 K := { M33.identity with m20 := tx, m21 := ty }

/-- FMMatrix33.cpp 63-68: `ScaleMatrix`. -/
def M33.scale (sx sy : K) : M33 K := { M33.identity with m00 := sx, m11 := sy }

/-- FMMatrix33.cpp 83-93: the matrix of the cofactors. -/
def M33.cofactors (a : M33 K) : M33 K where
  m00 := det2x2 a.m11 a.m12 a.m21 a.m22
  m01 := -(det2x2 a.m01 a.m02 a.m21 a.m22)
  m02 := det2x2 a.m01 a.m02 a.m11 a.m12
  m10 := -(det2x2 a.m10 a.m12 a.m20 a.m22)
  m11 := det2x2 a.m00 a.m02 a.m20 a.m22
  m12 := -(det2x2 a.m00 a.m02 a.m10 a.m12)
  m20 := det2x2 a.m10 a.m11 a.m20 a.m21
  m21 := -(det2x2 a.m00 a.m01 a.m20 a.m21)
  m22 := det2x2 a.m00 a.m01 a.m10 a.m11

/-- FMMatrix33.cpp 95: the determinant. -/
def M33.determinant (a : M33 K) : K := a.m00 * a.cofactors.m00 + a.m10 * a.cofactors.m01 + a.m20 * a.cofactors.m02

/-- FMMatrix33.cpp 101-111: all elements times a number. -/
def M33.scalar (s : K) (a : M33 K) : M33 K :=
  ⟨a.m00 * s, a.m01 * s, a.m02 * s, a.m10 * s, a.m11 * s, a.m12 * s, a.m20 * s, a.m21 * s, a.m22 * s⟩

/-- FMMatrix33.cpp 116-129: `operator*`. -/
def M33.mul (a b : M33 K) : M33 K where
  m00 := a.m00 * b.m00 + a.m10 * b.m01 + a.m20 * b.m02
  m01 := a.m01 * b.m00 + a.m11 * b.m01 + a.m21 * b.m02
  m02 := a.m02 * b.m00 + a.m12 * b.m01 + a.m22 * b.m02
  m10 := a.m00 * b.m10 + a.m10 * b.m11 + a.m20 * b.m12
  m11 := a.m01 * b.m10 + a.m11 * b.m11 + a.m21 * b.m12
  m12 := a.m02 * b.m10 + a.m12 * b.m11 + a.m22 * b.m12
  m20 := a.m00 * b.m20 + a.m10 * b.m21 + a.m20 * b.m22
  m21 := a.m01 * b.m20 + a.m11 * b.m21 + a.m21 * b.m22
  m22 := a.m02 * b.m20 + a.m12 * b.m21 + a.m22 * b.m22

end Ring

section Field
variable {K : Type} [Field K] [LinearOrder K]

/-- FMFloat.h 24: `FLT_TOLERANCE`. -/
def tolerance : K := 1 / 10000

/-- FMFloat.h 29: `IsEquivalent`. -/
def equivalent (a b : K) : Bool := decide (a - b < tolerance) && decide (b - a < tolerance)

/-- FMath.h 116: `Sign`. -/
def sign (a : K) : K := if a ≥ 0 then 1 else -1

/-- FMMatrix44.cpp 219-220: the determinant, replaced if it is nearly zero; epsilon is 2^-52. -/
def safeDet (det : K) : K := if det + 1 / 2 ^ 52 ≥ 0 ∧ det - 1 / 2 ^ 52 ≤ 0 then sign det * tolerance else det

/-- FMMatrix44.cpp 193-244: `Inverted`; the determinant used is never zero. -/
def M44.inverted (a : M44 K) : M44 K :=
  M44.scalar (1 / safeDet (a.m00 * a.cofactors.m00 + a.m10 * a.cofactors.m01 + a.m20 * a.cofactors.m02 + a.m30 * a.cofactors.m03)) a.cofactors

/-- FMMatrix33.cpp 97-98: the determinant, replaced if it is nearly zero. -/
def safeDet33 (det : K) : K := if equivalent det 0 then 1 / 100 else det

/-- FMMatrix33.cpp 79-114: `Inverted`; the determinant used is never zero. -/
def M33.inverted (a : M33 K) : M33 K := M33.scalar (1 / safeDet33 a.determinant) a.cofactors

end Field

end Verif.Geo
