import Verif.Geo
import Mathlib.Algebra.Order.Floor.Defs
import Mathlib.Algebra.Order.Floor.Ring
import Mathlib.Data.Rat.Floor

/-!
# Model of colours (FMath/FMColor.h, FMColor.cpp, FMVector3.cpp)

Numbers are elements of an ordered field with integer parts; `f32` at the end rounds to single precision, for the colours that come from bytes.
-/

namespace Verif.FColor

open Verif.Geo (V3 V4 equivalent)

/-- FMColor.h 29-32: a colour with four bytes. -/
structure Color where
  r : Nat
  g : Nat
  b : Nat
  a : Nat
deriving DecidableEq

/-- FMColor.h 53: the constructor from a 32-bit number. -/
def Color.ofHex (hex : UInt32) : Color where
  r := ((hex &&& 0xFF000000) >>> 24).toUInt8.toNat
  g := ((hex &&& 0xFF0000) >>> 16).toUInt8.toNat
  b := ((hex &&& 0xFF00) >>> 8).toUInt8.toNat
  a := (hex &&& 0xFF).toUInt8.toNat

/-- FMColor.h 89: `ComponentAverage`; the sum in 32 bits. -/
def Color.average (c : Color) : Nat := (UInt32.ofNat c.r + UInt32.ofNat c.g + UInt32.ofNat c.b).toNat / 3

section Field
variable {K : Type} [Field K] [LinearOrder K] [FloorRing K]

/-- The conversion of a floating-point number to `uint8`: towards zero, not defined if the result does not fit. -/
def toByte (v : K) : Option Nat := if -1 < v ∧ v < 256 then some ⌊v⌋.toNat else none

/-- FMColor.cpp 16, 21, ...: one component. -/
def component (f : K) : Option Nat := toByte (f * 255)

/-- FMColor.cpp 12-45: the constructor from an array of floating-point numbers. -/
def Color.ofFloats : List K → Option Color
  | [r] => (component r).map fun r => ⟨r, 0, 0, 255⟩
  | [r, g] => (component r).bind fun r => (component g).map fun g => ⟨r, g, 0, 255⟩
  | [r, g, b] => (component r).bind fun r => (component g).bind fun g => (component b).map fun b => ⟨r, g, b, 255⟩
  | [r, g, b, a] => (component r).bind fun r => (component g).bind fun g => (component b).bind fun b => (component a).map fun a => ⟨r, g, b, a⟩
  | _ => some ⟨0, 0, 0, 255⟩

/-- FMColor.cpp 47-53: the constructor from a vector with three components. -/
def Color.ofV3 (v : V3 K) : Option Color :=
  (component v.x).bind fun r => (component v.y).bind fun g => (component v.z).map fun b => ⟨r, g, b, 255⟩

/-- FMColor.cpp 55-61: the constructor from a vector with four components. -/
def Color.ofV4 (v : V4 K) : Option Color :=
  (component v.x).bind fun r => (component v.y).bind fun g => (component v.z).bind fun b => (component v.w).map fun a => ⟨r, g, b, a⟩

omit [LinearOrder K] [FloorRing K] in
/-- FMColor.cpp 63-93: `ToFloats`. -/
def Color.toFloats (c : Color) : Nat → List K
  | 1 => [(c.r : K) / 255]
  | 2 => [(c.r : K) / 255, (c.g : K) / 255]
  | 3 => [(c.r : K) / 255, (c.g : K) / 255, (c.b : K) / 255]
  | 4 => [(c.r : K) / 255, (c.g : K) / 255, (c.b : K) / 255, (c.a : K) / 255]
  | n => List.replicate n 0

omit [LinearOrder K] [FloorRing K] in
/-- FMVector3.cpp 51-57: the vector of a colour. -/
def Color.toV4 (c : Color) : V4 K := ⟨(c.r : K) / 255, (c.g : K) / 255, (c.b : K) / 255, (c.a : K) / 255⟩

/-- FMColor.h 95: the multiplication of a number with a colour. -/
def Color.scale (s : K) (c : Color) : Option Color :=
  (toByte (c.r * s)).bind fun r => (toByte (c.g * s)).bind fun g => (toByte (c.b * s)).bind fun b => (toByte (c.a * s)).map fun a => ⟨r, g, b, a⟩

/-- The outcome of `FromHSVColor` in a sector. -/
def sectorColor (sector : Nat) (value p q t : K) : V4 K :=
  match sector with
  | 0 => ⟨value, t, p, 1⟩
  | 1 => ⟨q, value, p, 1⟩
  | 2 => ⟨p, value, t, 1⟩
  | 3 => ⟨p, q, value, 1⟩
  | 4 => ⟨t, p, value, 1⟩
  | _ => ⟨value, p, q, 1⟩

/-- FMVector3.cpp 59-84: `FromHSVColor`. A hue of `none` is not a number; its conversion and that of one outside of the range of `uint32` are not defined. -/
def fromHSV (hue : Option K) (saturation value : K) : Option (V4 K) :=
  if equivalent saturation 0 then some ⟨value, value, value, 1⟩
  else
    hue.bind fun hue =>
      let sector := ⌊hue * 6⌋
      let f := hue * 6 - sector
      if 0 ≤ sector ∧ sector < 4294967296 then
        some (sectorColor sector.toNat value (value * (1 - saturation)) (value * (1 - saturation * f)) (value * (1 - saturation * (1 - f))))
      else none

omit [FloorRing K] in
/-- A division; `none` is the result of a division by zero, which is not a number or infinite. -/
def divide (a b : K) : Option K := if b = 0 then none else some (a / b)

omit [FloorRing K] in
/-- FMVector3.cpp 96-102: the hue of `ToHSVColor`. -/
def hueOf (c : V3 K) (largest delta : K) : Option K :=
  let h : Option K :=
    if equivalent c.x largest then divide (c.y - c.z) delta
    else if equivalent c.y largest then (divide (c.z - c.x) delta).map (2 + ·)
    else (divide (c.x - c.y) delta).map (4 + ·)
  h.map fun h => if h / 6 < 0 then h / 6 + 1 else h / 6

omit [FloorRing K] in
/-- FMVector3.cpp 86-107: `ToHSVColor`: hue, saturation and value. -/
def toHSV (c : V3 K) : Option K × K × K :=
  let smallest := min (min c.x c.y) c.z
  let largest := max (max c.x c.y) c.z
  let delta := largest - smallest
  if equivalent largest 0 then (some 0, 0, largest) else (hueOf c largest delta, delta / largest, largest)

end Field

/-! ## Single precision -/

/-- The integer nearest to a rational number that is not negative; a tie goes to the even one. -/
def roundEven (q : ℚ) : Int :=
  let n := q.floor
  let d := q - n
  if d < 1 / 2 then n else if 1 / 2 < d then n + 1 else if n % 2 = 0 then n else n + 1

/-- The number of binary digits after the point that single precision (24 significant digits) has for `q`, if `q` is between 2^-17 and 2^23. -/
def digits (q : ℚ) : Nat := ((List.range 41).find? fun k => decide (8388608 ≤ q * 2 ^ k)).getD 0

/-- The nearest number in single precision, for 0 and numbers between 2^-17 and 2^23. -/
def f32 (q : ℚ) : ℚ := if q = 0 then 0 else roundEven (q * 2 ^ digits q) / 2 ^ digits q

/-- FMVector3.cpp 53 and FMColor.cpp 57 in single precision: a byte is converted to a number and back. -/
def byteTrip (c : Nat) : Option Nat := toByte (f32 (f32 ((c : ℚ) / 255) * 255))

end Verif.FColor
