import Verif.Quat
import Verif.GeoRotSpec
import Mathlib.Algebra.Quaternion

/-! # What quaternions are -/

namespace Verif.Geo

/-- The quaternion of mathematics, with Hamilton's product. -/
def Quat.toH (a : Quat) : Quaternion ℝ := ⟨a.w, a.x, a.y, a.z⟩

/-- A vector as a quaternion. -/
def V3.toH (v : V3 ℝ) : Quaternion ℝ := ⟨0, v.x, v.y, v.z⟩

/-- Rotations around X, Y, Z multiplied in this order. -/
noncomputable def rotationXYZ (r : V3 ℝ) : M44 ℝ := ((xAxisRotationMatrix r.x).mul (yAxisRotationMatrix r.y)).mul (zAxisRotationMatrix r.z)

/-- Unit quaternions. -/
def Quat.Unit (a : Quat) : Prop := a.x * a.x + a.y * a.y + a.z * a.z + a.w * a.w = 1

/-- The cosine of the angle between two unit quaternions. -/
def Quat.dot (a b : Quat) : ℝ := a.x * b.x + a.y * b.y + a.z * b.z + a.w * b.w

/-- The angles with some turns added. -/
noncomputable def turned (v : V3 ℝ) (i j k : ℤ) : V3 ℝ := ⟨v.x + i * (2 * Real.pi), v.y + j * (2 * Real.pi), v.z + k * (2 * Real.pi)⟩

end Verif.Geo
