import Verif.GeoRot

/-!
# Model of quaternions (FMath/FMQuaternion.h, FMQuaternion.cpp)

Numbers are real numbers; `none` stands for a division by zero.
-/

namespace Verif.Geo

noncomputable section

/-- FMQuaternion.h 24-30: a quaternion. -/
@[ext] structure Quat where
  x : ℝ
  y : ℝ
  z : ℝ
  w : ℝ

/-- FMQuaternion.cpp 47: `Identity`. -/
def Quat.identity : Quat := ⟨0, 0, 0, 1⟩

/-- FMQuaternion.cpp 71-78: the quaternion of an axis and an angle. -/
def Quat.ofAxisAngle (axis : V3 ℝ) (angle : ℝ) : Quat :=
  let s := Real.sin (angle / 2)
  ⟨axis.x * s, axis.y * s, axis.z * s, Real.cos (angle / 2)⟩

/-- FMQuaternion.cpp 80-88: `operator*`. -/
def Quat.mul (a q : Quat) : Quat where
  x := q.w * a.x + q.x * a.w + q.y * a.z - q.z * a.y
  y := q.w * a.y + q.y * a.w + q.z * a.x - q.x * a.z
  z := q.w * a.z + q.z * a.w + q.x * a.y - q.y * a.x
  w := q.w * a.w - q.x * a.x - q.y * a.y - q.z * a.z

/-- FMQuaternion.h 106: `operator~`, the conjugate. -/
def Quat.conj (a : Quat) : Quat := ⟨-a.x, -a.y, -a.z, a.w⟩

/-- FMQuaternion.cpp 90-94: `operator*` with a vector. -/
def Quat.rotate (a : Quat) (v : V3 ℝ) : V3 ℝ :=
  let out := (a.mul ⟨v.x, v.y, v.z, 0⟩).mul a.conj
  ⟨out.x, out.y, out.z⟩

/-- FMQuaternion.h 78, 82: `LengthSquared`, `Length`. -/
def Quat.lengthSquared (a : Quat) : ℝ := a.x * a.x + a.y * a.y + a.z * a.z + a.w * a.w

def Quat.length (a : Quat) : ℝ := √a.lengthSquared

/-- FMQuaternion.h 85: `NormalizeIt`. -/
def Quat.normalizeIt (a : Quat) : Quat := if a.length > 0 then ⟨a.x / a.length, a.y / a.length, a.z / a.length, a.w / a.length⟩ else a

/-- FMQuaternion.cpp 96-122: `slerp`. -/
def Quat.slerp (a other : Quat) (t : ℝ) : Option Quat :=
  let dot := a.x * other.x + a.y * other.y + a.z * other.z + a.w * other.w
  if equivalent dot 1 then some a
  else
    let theta := Real.arccos dot
    let theta := if theta < 0 then -theta else theta
    let st := Real.sin theta
    if st = 0 then none
    else
      let interp1 := Real.sin ((1 - t) * theta) / st
      let interp2 := Real.sin (t * theta) / st
      some (Quat.normalizeIt ⟨interp1 * a.x + interp2 * other.x, interp1 * a.y + interp2 * other.y, interp1 * a.z + interp2 * other.z,
        interp1 * a.w + interp2 * other.w⟩)

/-- FMQuaternion.cpp 124-140: `ToAngleAxis`; the axis and the angle. -/
def Quat.toAngleAxis (a : Quat) : V3 ℝ × ℝ :=
  let angle := 2 * Real.arccos a.w
  let s := Real.sin (angle / 2)
  if !equivalent s 0 then (V3.normalize ⟨a.x / s, a.y / s, a.z / s⟩, angle) else (⟨1, 0, 0⟩, angle)

/-- FMQuaternion.cpp 18-22: `AngleApproach`, with at most `n` turns of each loop. -/
def approachDown : Nat → ℝ → ℝ → Option ℝ
  | 0, _, _ => none
  | n + 1, pval, val => if val - pval > Real.pi then approachDown n pval (val - 2 * Real.pi) else some val

def approachUp : Nat → ℝ → ℝ → Option ℝ
  | 0, _, _ => none
  | n + 1, pval, val => if val - pval < -Real.pi then approachUp n pval (val + 2 * Real.pi) else some val

def angleApproach (n : Nat) (pval val : ℝ) : Option ℝ := (approachDown n pval val).bind (approachUp n pval)

def approach3 (n : Nat) (p v : V3 ℝ) : Option (V3 ℝ) :=
  (angleApproach n p.x v.x).bind fun x => (angleApproach n p.y v.y).bind fun y => (angleApproach n p.z v.z).bind fun z => some ⟨x, y, z⟩

/-- FMQuaternion.cpp 28, 33: the squared distance. -/
def distanceSq (p v : V3 ℝ) : ℝ := (v.x - p.x) * (v.x - p.x) + (v.y - p.y) * (v.y - p.y) + (v.z - p.z) * (v.z - p.z)

/-- FMQuaternion.cpp 24-40: `PatchEuler`. -/
def patchEuler (n : Nat) (p v : V3 ℝ) : Option (V3 ℝ) :=
  (approach3 n p v).bind fun v =>
    (approach3 n p ⟨v.x + Real.pi, Real.pi - v.y, v.z + Real.pi⟩).bind fun alt =>
      some (if distanceSq p alt < distanceSq p v then alt else v)

/-- FMQuaternion.cpp 142-168: `ToEuler` without previous angles. -/
def Quat.toEuler (a : Quat) : V3 ℝ :=
  let siny := 2 * (a.x * a.z + a.y * a.w)
  if siny > 1 - tolerance then ⟨2 * atan2 a.x a.w, Real.pi / 2, 0⟩
  else if siny < -1 + tolerance then ⟨-2 * atan2 a.x a.w, -Real.pi / 2, 0⟩
  else ⟨atan2 (a.x * a.w - a.y * a.z) (1 - 2 * (a.x * a.x + a.y * a.y)), Real.arcsin siny,
    atan2 (2 * (a.z * a.w - a.x * a.y)) (1 - 2 * (a.y * a.y + a.z * a.z))⟩

/-- FMQuaternion.cpp 170-176: `ToEuler` with previous angles. -/
def Quat.toEulerFrom (n : Nat) (a : Quat) (previous : V3 ℝ) : Option (V3 ℝ) := patchEuler n previous a.toEuler

/-- FMQuaternion.cpp 179-222: `ToMatrix`, `SetToMatrix`. The comparison with `Identity` in line 196 compares addresses, there being no `operator==`
for quaternions; for the object `Identity` itself the result is the same. -/
def Quat.toMatrix (a : Quat) : M44 ℝ :=
  let den := a.x * a.x + a.y * a.y + a.z * a.z + a.w * a.w
  let s := if den = 0 then 1 else 2 / den
  let xs := a.x * s
  let ys := a.y * s
  let zs := a.z * s
  let wx := a.w * xs
  let wy := a.w * ys
  let wz := a.w * zs
  let xx := a.x * xs
  let xy := a.x * ys
  let xz := a.x * zs
  let yy := a.y * ys
  let yz := a.y * zs
  let zz := a.z * zs
  { M44.identity with
    m00 := 1 - (yy + zz), m10 := xy - wz, m20 := xz + wy, m01 := xy + wz, m11 := 1 - (xx + zz), m21 := yz - wx,
    m02 := xz - wy, m12 := yz + wx, m22 := 1 - (xx + yy) }

/-- FMQuaternion.cpp 225-231: `EulerRotationQuaternion`. -/
def Quat.euler (x y z : ℝ) : Quat := ((Quat.ofAxisAngle ⟨0, 0, 1⟩ z).mul (Quat.ofAxisAngle ⟨0, 1, 0⟩ y)).mul (Quat.ofAxisAngle ⟨1, 0, 0⟩ x)

/-- FMQuaternion.cpp 233-273: `MatrixRotationQuaternion`. -/
def Quat.ofMatrix (m : M44 ℝ) : Quat :=
  let tr := 1 + m.m00 + m.m11 + m.m22
  if tr > 1 / 100000 then
    let s := √tr * 2
    ⟨(m.m12 - m.m21) / s, (m.m20 - m.m02) / s, (m.m01 - m.m10) / s, s * (1 / 4)⟩
  else if m.m00 > m.m11 then
    let s := √(1 + m.m00 - m.m11 - m.m22) * 2
    ⟨1 / 4 * s, (m.m01 + m.m10) / s, (m.m20 + m.m02) / s, (m.m12 - m.m21) / s⟩
  else if m.m11 > m.m22 then
    let s := √(1 + m.m11 - m.m00 - m.m22) * 2
    ⟨(m.m01 + m.m10) / s, 1 / 4 * s, (m.m12 + m.m21) / s, (m.m20 - m.m02) / s⟩
  else
    let s := √(1 + m.m22 - m.m00 - m.m11) * 2
    ⟨(m.m20 + m.m02) / s, (m.m12 + m.m21) / s, 1 / 4 * s, (m.m01 - m.m10) / s⟩

end

end Verif.Geo
