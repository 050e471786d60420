import Verif.Geo
import Mathlib.Analysis.SpecialFunctions.Trigonometric.Inverse
import Mathlib.Analysis.SpecialFunctions.Complex.Arg

/-!
# Model of rotations (FMath/FMMatrix44.cpp)

Angles need trigonometric functions, so numbers are real numbers here.
-/

namespace Verif.Geo

noncomputable section

/-- FMVector3.h 84: `Length`. -/
def V3.length (a : V3 ℝ) : ℝ := √(a.x * a.x + a.y * a.y + a.z * a.z)

/-- FMVector3.h 91: `Normalize`. -/
def V3.normalize (a : V3 ℝ) : V3 ℝ := if a.length > 0 then ⟨a.x / a.length, a.y / a.length, a.z / a.length⟩ else ⟨1, 0, 0⟩

/-- FMMatrix44.cpp 323-349: `AxisRotationMatrix`. -/
def axisRotationMatrix (axis : V3 ℝ) (angle : ℝ) : M44 ℝ :=
  M44.axisRotation (if equivalent axis.lengthSquared 1 then axis else axis.normalize) (Real.cos angle) (Real.sin angle)

/-- FMMatrix44.cpp 351-357: `XAxisRotationMatrix`. -/
def xAxisRotationMatrix (angle : ℝ) : M44 ℝ := M44.xRotation (Real.cos angle) (Real.sin angle)

/-- FMMatrix44.cpp 359-365: `YAxisRotationMatrix`. -/
def yAxisRotationMatrix (angle : ℝ) : M44 ℝ := M44.yRotation (Real.cos angle) (Real.sin angle)

/-- FMMatrix44.cpp 367-373: `ZAxisRotationMatrix`. -/
def zAxisRotationMatrix (angle : ℝ) : M44 ℝ := M44.zRotation (Real.cos angle) (Real.sin angle)

/-- FMMatrix44.cpp 375-383: `EulerRotationMatrix`. -/
def eulerRotationMatrix (r : V3 ℝ) : M44 ℝ :=
  let t := if equivalent r.x 0 then M44.identity else xAxisRotationMatrix r.x
  let t := if equivalent r.y 0 then t else t.mul (yAxisRotationMatrix r.y)
  if equivalent r.z 0 then t else t.mul (zAxisRotationMatrix r.z)

/-- FMVector3.h 253: `IsEquivalent` for vectors. -/
def equivalent3 (a b : V3 ℝ) : Bool := equivalent a.x b.x && equivalent a.y b.y && equivalent a.z b.z

/-- FMMatrix44.cpp 397-409: the sideways direction of `LookAtMatrix`. -/
def sideways (forward up : V3 ℝ) : V3 ℝ :=
  if !equivalent3 forward up && !equivalent3 forward up.neg then (forward.cross up).normalize
  else if !equivalent3 up ⟨1, 0, 0⟩ then ⟨1, 0, 0⟩ else ⟨0, 0, 1⟩

/-- FMMatrix44.cpp 392-421: `LookAtMatrix`. -/
def lookAtMatrix (eye target up : V3 ℝ) : M44 ℝ :=
  let f := (target.sub eye).normalize
  let s := sideways f up
  let u := s.cross f
  ⟨s.x, s.y, s.z, 0, u.x, u.y, u.z, 0, -f.x, -f.y, -f.z, 0, eye.x, eye.y, eye.z, 1⟩

/-- The C library function `atan2f`; at the origin it is 0. -/
def atan2 (y x : ℝ) : ℝ := Complex.arg ⟨x, y⟩

/-- FMMatrix44.cpp 111-118: the length of a column; `savedScale` and `scale`. -/
def columnLength (a b c : ℝ) : ℝ := √(a * a + b * b + c * c)

def nonZeroScale (s : ℝ) : ℝ := if equivalent s 0 then tolerance else s

/-- FMMatrix44.cpp 130-146: the rotation around Y and its cosine, as computed; `v` is m[2][0] / scale.z. -/
def decomposeY (v : ℝ) : ℝ × ℝ :=
  if v ≥ 1 - tolerance then (Real.pi / 2, 0) else if v ≤ -1 + tolerance then (-(Real.pi / 2), 0) else (Real.arcsin v, Real.cos (Real.arcsin v))

/-- What `Decompose` gives. -/
structure Parts where
  scale : V3 ℝ
  rotation : V3 ℝ
  translation : V3 ℝ
  inverted : ℝ

/-- FMMatrix44.cpp 120-165: the rotation, given the sign and the scale. -/
def decomposeRotation (m : M44 ℝ) (scale : V3 ℝ) : V3 ℝ :=
  let yc := decomposeY (m.m20 / scale.z)
  if |yc.2| > 1 / 100 then
    ⟨atan2 (-m.m21 / scale.z / yc.2) (m.m22 / scale.z / yc.2), yc.1, atan2 (-m.m10 / scale.y / yc.2) (m.m00 / scale.x / yc.2)⟩
  else ⟨atan2 (m.m12 / scale.y) (m.m11 / scale.y), yc.1, 0⟩

/-- FMMatrix44.cpp 107-169: `Decompose`. -/
def decompose (m : M44 ℝ) : Parts :=
  let saved : V3 ℝ := ⟨columnLength m.m00 m.m01 m.m02, columnLength m.m10 m.m11 m.m12, columnLength m.m20 m.m21 m.m22⟩
  let inverted := sign (det3x3 m.m00 m.m01 m.m02 m.m10 m.m11 m.m12 m.m20 m.m21 m.m22)
  let scale : V3 ℝ := ⟨nonZeroScale saved.x, nonZeroScale saved.y, nonZeroScale saved.z⟩
  let scale := if inverted < 0 then scale.neg else scale
  ⟨saved, decomposeRotation m scale, ⟨m.m30, m.m31, m.m32⟩, inverted⟩

/-- FMMatrix44.cpp 171-176: `Recompose`. -/
def recompose (p : Parts) : M44 ℝ :=
  ((((M44.translation p.translation).mul (axisRotationMatrix ⟨0, 0, 1⟩ p.rotation.z)).mul (axisRotationMatrix ⟨0, 1, 0⟩ p.rotation.y)).mul
    (axisRotationMatrix ⟨1, 0, 0⟩ p.rotation.x)).mul (M44.scale (V3.smul p.inverted p.scale))

end

end Verif.Geo
