import Verif.GeoRot
import Mathlib.Algebra.Order.Floor.Defs
import Mathlib.Algebra.Order.Floor.Ring

/-!
# Model of the small numeric helpers (FMath/FMath.h, FMVector2.h, FMVector3.h, FMVector4.h, FMAngleAxis.cpp, FMRandom.cpp)
-/

namespace Verif.FScalar

open Verif.Geo (V3 V4)

section Order
variable {K : Type} [LinearOrder K]

/-- FMath.h 128: `Clamp`, with one type for all arguments. -/
def clamp (val mn mx : K) : K := if val > mx then mx else if val < mn then mn else val

/-- FMVector3.h 133: `ComponentMinimum` of a vector with another one. -/
def compMin (a m : V3 K) : V3 K := ⟨if a.x < m.x then m.x else a.x, if a.y < m.y then m.y else a.y, if a.z < m.z then m.z else a.z⟩

/-- FMVector3.h 143: `ComponentMaximum` of a vector with another one. -/
def compMax (a m : V3 K) : V3 K := ⟨if a.x > m.x then m.x else a.x, if a.y > m.y then m.y else a.y, if a.z > m.z then m.z else a.z⟩

/-- FMVector3.h 156: `ComponentClamp`. -/
def compClamp (a mn mx : V3 K) : V3 K := compMax (compMin a mn) mx

/-- FMVector4.h 110: `ComponentMinimum` of a vector with another one. -/
def compMin4 (a m : V4 K) : V4 K :=
  ⟨if a.x < m.x then m.x else a.x, if a.y < m.y then m.y else a.y, if a.z < m.z then m.z else a.z, if a.w < m.w then m.w else a.w⟩

/-- FMVector4.h 116: `ComponentMaximum` of a vector with another one. -/
def compMax4 (a m : V4 K) : V4 K :=
  ⟨if a.x > m.x then m.x else a.x, if a.y > m.y then m.y else a.y, if a.z > m.z then m.z else a.z, if a.w > m.w then m.w else a.w⟩

end Order

section Field
variable {K : Type} [Field K] [LinearOrder K]

/-- FMVector3.h 137: `ComponentMinimum` without arguments. -/
def smallest (a : V3 K) : K := min |a.x| (min |a.y| |a.z|)

/-- FMVector3.h 147: `ComponentMaximum` without arguments. -/
def largest (a : V3 K) : K := max |a.x| (max |a.y| |a.z|)

/-- FMVector3.h 160: `ComponentAverage`. -/
def average (a : V3 K) : K := (|a.x| + |a.y| + |a.z|) / 3

/-- FMVector3.h 257: `Projected`; `none` if there is a division by zero. -/
def projected (a unto : V3 K) : Option (V3 K) :=
  if unto.lengthSquared = 0 then none else some (V3.smul (a.dot unto / unto.lengthSquared) unto)

/-- FMath.h 140: the general `Wrap`, with loops; `n` bounds the number of turns of each. -/
def wrapDown (mx d : K) : Nat → K → Option K
  | 0, v => if v > mx then none else some v
  | n + 1, v => if v > mx then wrapDown mx d n (v - d) else some v

/-- FMath.h 140: the second loop. -/
def wrapUp (mn d : K) : Nat → K → Option K
  | 0, v => if v < mn then none else some v
  | n + 1, v => if v < mn then wrapUp mn d n (v + d) else some v

/-- FMath.h 140: the general `Wrap`. -/
def wrap (n : Nat) (val mn mx : K) : Option K := (wrapDown mx (mx - mn) n val).bind (wrapUp mn (mx - mn) n)

variable [FloorRing K]

/-- The C library function `fmod` for `a ≥ 0`; `none` for a divisor of zero, for which the result is not a number. The sign of the divisor does not matter. -/
def fmod (a b : K) : Option K := if b = 0 then none else some (a - |b| * ⌊a / |b|⌋)

/-- FMath.h 144-154: `Wrap` for `float` and `double`. -/
def wrapFloat (val mn mx : K) : Option K :=
  if val > mx then (fmod (val - mx) (mx - mn)).map (mn + ·)
  else if val < mn then (fmod (mn - val) (mx - mn)).map (mx - ·)
  else some val

end Field

/-- A result in 32 bits with a sign; `none` is an overflow. -/
def int32 (v : Int) : Option Int := if -2147483648 ≤ v ∧ v ≤ 2147483647 then some v else none

/-- `a % b` for integers with a sign; `none` for a division by zero (or the one overflow). -/
def rem (a b : Int) : Option Int := if b = 0 ∨ (a = -2147483648 ∧ b = -1) then none else some (a.tmod b)

/-- FMath.h 156-160: `Wrap` for `int`. -/
def wrapInt (val mn mx : Int) : Option Int :=
  if val > mx then (int32 (val - mx)).bind fun a => (int32 (mx - mn)).bind fun b => (rem a b).bind fun r => int32 (mn + r)
  else if val < mn then (int32 (mn - val)).bind fun a => (int32 (mx - mn)).bind fun b => (rem a b).bind fun r => int32 (mx - r)
  else some val

/-- FMath.h 162-166: `Wrap` for `uint32`; `none` is a division by zero. -/
def wrapUInt (val mn mx : UInt32) : Option UInt32 :=
  if val > mx then if mx - mn = 0 then none else some (mn + (val - mx) % (mx - mn))
  else if val < mn then if mx - mn = 0 then none else some (mx - (mn - val) % (mx - mn))
  else some val

/-! ## Vectors -/

noncomputable section

/-- FMVector3.h 87: `NormalizeIt`. -/
def normalizeIt (a : V3 ℝ) : V3 ℝ := if a.length > 0 then ⟨a.x / a.length, a.y / a.length, a.z / a.length⟩ else ⟨0, 0, 1⟩

/-- FMAngleAxis.cpp 25-35: `operator==` of angles with axes. -/
def sameAngleAxis (axis1 : V3 ℝ) (angle1 : ℝ) (axis2 : V3 ℝ) (angle2 : ℝ) : Bool :=
  if Geo.equivalent angle1 angle2 then Geo.equivalent3 axis1 axis2 else Geo.equivalent angle1 (-angle2) && Geo.equivalent3 axis1 axis2.neg

end

/-! ## Random numbers: FMRandom.cpp 24-37, with the result of `rand()` as argument -/

/-- FMRandom.cpp 24-27: `GetUInt32`. -/
def randomUInt32 (rand : Nat) : Nat := rand &&& 0x7FFF

/-- FMRandom.cpp 29-32: `GetInt32`. -/
def randomInt32 (rand : Nat) : Int := ((rand &&& 0x7FFF : Nat) : Int) - 0x3FFF

/-- FMRandom.cpp 34-37: `GetFloat`. -/
def randomFloat {K : Type} [Field K] (rand : Nat) : K := ((rand &&& 0x7FFF : Nat) : K) / 0x7FFF

end Verif.FScalar
