import Verif.Builder

/-!
# Model of the number and list parsers of `FUStringConversion` (FUtils/FUStringConversion.hpp, FUStringConversion.cpp)

A `const CH*` cursor is the list of characters from that address to the end of the allocation; reading the empty list is
undefined (`none`). Characters are signed `char` values. NULL arguments are not modelled. Arrays are lists (the refinement of
`fm::vector` to lists is `Verif/VecProps.lean`); `reserve` does not change them.

`int32` arithmetic that overflows is undefined in C++; usual compilers wrap. Both are modelled, through the parameter
`Ov`: `strict` makes an overflow undefined, `wrap` reduces modulo 2^32.
-/

namespace Verif.FConv

open Verif.FStr (Ch)

/-- What happens when an `int32` result is out of range. -/
inductive Ov where
  | strict | wrap
deriving DecidableEq

/-- The value of an `int32` expression. -/
def int32 (ov : Ov) (x : Int) : Option Int :=
  if -2 ^ 31 ≤ x ∧ x < 2 ^ 31 then some x
  else match ov with
    | .strict => none
    | .wrap => some (Int.bmod x (2 ^ 32))

/-- The four blanks skipped before a value. -/
def blank (c : Ch) : Bool := c = 32 || c = 9 || c = 13 || c = 10

/-- The three blanks that end an integer (carriage return is missing). -/
def blank3 (c : Ch) : Bool := c = 32 || c = 9 || c = 10

/-- A decimal digit. -/
def digit (c : Ch) : Bool := 48 ≤ c && c ≤ 57

/-- `while ((c = *s) != 0 && p(c)) ++s;` -/
def skipWhile (p : Ch → Bool) : List Ch → Option (List Ch)
  | [] => none
  | c :: rest => if c ≠ 0 ∧ p c = true then skipWhile p rest else some (c :: rest)

/-- `*s`. -/
def deref : List Ch → Option Ch
  | [] => none
  | c :: _ => some c

/-- FUStringConversion.hpp 49-50, 150-151: skip the rest of the token and the blanks after it. -/
def skipToken3 (s : List Ch) : Option (List Ch) := (skipWhile (fun c => !blank3 c) s).bind (skipWhile blank3)

/-- FUStringConversion.hpp 124-125: the same with all four blanks. -/
def skipToken (s : List Ch) : Option (List Ch) := (skipWhile (fun c => !blank c) s).bind (skipWhile blank)

/-- FUStringConversion.hpp 143-148: the digit loop of `ToUInt32`; the arithmetic is modulo 2^32. -/
def digitsU (val : Nat) : List Ch → Option (Nat × List Ch)
  | [] => none
  | c :: rest =>
    if c ≠ 0 ∧ digit c = true then digitsU ((val * 10 + (c - 48).toNat) % 2 ^ 32) rest else some (val, c :: rest)

/-- FUStringConversion.hpp 133-154: `ToUInt32(const CH** value)`: the value and the new cursor. -/
def toUInt32 (s : List Ch) : Option (Nat × List Ch) :=
  (deref s).bind fun c =>
  if c = 0 then some (0, s)
  else (skipWhile blank s).bind fun s1 =>
    (digitsU 0 s1).bind fun r => (skipToken3 r.2).map fun s3 => (r.1, s3)

/-- FUStringConversion.hpp 44: `val * 10 + c - '0'`: two `int` additions, each of which may overflow. -/
def stepI (ov : Ov) (val : Int) (c : Ch) : Option Int :=
  (int32 ov (val * 10)).bind fun a => (int32 ov (a + c)).bind fun b => int32 ov (b - 48)

/-- FUStringConversion.hpp 42-47: the digit loop of `ToInt32`. -/
def digitsI (ov : Ov) (val : Int) : List Ch → Option (Int × List Ch)
  | [] => none
  | c :: rest =>
    if c ≠ 0 ∧ digit c = true then (stepI ov val c).bind fun v => digitsI ov v rest else some (val, c :: rest)

/-- FUStringConversion.hpp 39-40: the sign. -/
def signI : List Ch → Option (Int × List Ch)
  | [] => none
  | c :: rest => if c = 45 then some (-1, rest) else some (1, c :: rest)

/-- FUStringConversion.hpp 29-53: `ToInt32(const CH** value)`. -/
def toInt32 (ov : Ov) (s : List Ch) : Option (Int × List Ch) :=
  (skipWhile blank s).bind fun s1 => (signI s1).bind fun sg =>
  (digitsI ov 0 sg.2).bind fun r => (int32 ov (r.1 * sg.1)).bind fun v => (skipToken3 r.2).map fun s3 => (v, s3)

/-- FUStringConversion.hpp 170-173: the value of a hexadecimal digit. -/
def hexVal (c : Ch) : Option Nat :=
  if 48 ≤ c ∧ c ≤ 57 then some (c - 48).toNat
  else if 65 ≤ c ∧ c ≤ 70 then some (c + 10 - 65).toNat
  else if 97 ≤ c ∧ c ≤ 102 then some (c + 10 - 97).toNat
  else none

/-- FUStringConversion.hpp 168-175: the loop of `HexToUInt32`, `n` iterations left. -/
def hexLoop (val : Nat) : Nat → List Ch → Option (Nat × List Ch)
  | 0, s => some (val, s)
  | _ + 1, [] => none
  | n + 1, c :: rest =>
    if c = 0 then some (val, c :: rest)
    else match hexVal c with
      | some d => hexLoop ((val * 16 + d) % 2 ^ 32) n rest
      | none => some (val, c :: rest)

/-- FUStringConversion.hpp 165: skip a `0x` prefix; the second character is read only after a `0`. -/
def skip0x : List Ch → Option (List Ch)
  | [] => none
  | c :: rest => if c = 48 then (deref rest).map fun d => if d = 120 ∨ d = 88 then rest.drop 1 else c :: rest else some (c :: rest)

/-- FUStringConversion.hpp 157-179: `HexToUInt32(const CH** value, uint32 count)`. -/
def hexToUInt32 (s : List Ch) (count : Nat) : Option (Nat × List Ch) :=
  (deref s).bind fun c => if c = 0 then some (0, s) else (skip0x s).bind fun s1 => hexLoop 0 count s1

/-- FUStringConversion.hpp 22-25: `ToBoolean`. -/
def toBoolean (s : List Ch) : Option Bool := (deref s).map fun c => !(c = 0 || c = 48 || c = 102 || c = 70)

/-- FUStringConversion.hpp 289-298: the loop of `CountValues`; `fuel` bounds the iterations. -/
def countLoop (count : Nat) : Nat → List Ch → Option Nat
  | 0, _ => none
  | fuel + 1, s => (deref s).bind fun c =>
    if c = 0 then some count
    else (skipWhile blank s).bind fun s1 => (deref s1).bind fun d =>
      if d = 0 then some count else (skipWhile (fun c => !blank c) s1).bind fun s2 => countLoop (count + 1) fuel s2

/-- FUStringConversion.hpp 284-301: `CountValues`. -/
def countValues (s : List Ch) : Option Nat := (deref s).bind fun c => if c > 0 then countLoop 0 s.length s else some 0

/-- `array.resize(n)` on lists, new elements being `d`. -/
def resizeTo {α : Type} (d : α) (l : List α) (n : Nat) : List α := l.take n ++ List.replicate (n - l.length) d

/-- FUStringConversion.hpp 337, 356, 375: read into the elements already there: `done` elements read, `todo` old ones left. -/
def fillOld {α : Type} (p : List Ch → Option (α × List Ch)) (done : List α) : List α → List Ch → Option (List α × List α × List Ch)
  | [], s => some (done, [], s)
  | o :: old, s => (deref s).bind fun c =>
    if c = 0 then some (done, o :: old, s) else (p s).bind fun r => fillOld p (done ++ [r.1]) old r.2

/-- FUStringConversion.hpp 342, 361, 380: `while (*value != 0) push_back(...)`; `fuel` bounds the iterations. -/
def pushRest {α : Type} (p : List Ch → Option (α × List Ch)) (acc : List α) : Nat → List Ch → Option (List α)
  | 0, _ => none
  | fuel + 1, s => (deref s).bind fun c =>
    if c = 0 then some acc else (p s).bind fun r => pushRest p (acc ++ [r.1]) fuel r.2

/-- FUStringConversion.hpp 330-345, 349-364, 368-383: `ToInt32List`, `ToUInt32List`, `ToFloatList`: the element parser `p` is the
only difference. When old elements are left over, the text is at its end, nothing is pushed and the array is cut to the number of
values read. -/
def toList {α : Type} (p : List Ch → Option (α × List Ch)) (d : α) (s : List Ch) (array : List α) : Option (List α) :=
  (deref s).bind fun c =>
  if c = 0 then some (resizeTo d array 0)
  else (fillOld p [] array s).bind fun r =>
    (countValues r.2.2).bind fun _ =>
    (pushRest p [] (r.2.2.length + 1) r.2.2).map fun more =>
      resizeTo d (r.1 ++ r.2.1 ++ more) (r.1.length + more.length)

/-- FUStringConversion.hpp 315-325: the loop of `ToBooleanList`. -/
def boolLoop (acc : List Bool) : Nat → List Ch → Option (List Bool)
  | 0, _ => none
  | fuel + 1, s => (deref s).bind fun c =>
    if c = 0 then some acc
    else (toBoolean s).bind fun b => (skipToken s).bind fun s2 => boolLoop (acc ++ [b]) fuel s2

/-- FUStringConversion.hpp 306-326: `ToBooleanList`. -/
def toBooleanList (s : List Ch) : Option (List Bool) := (skipWhile blank s).bind fun s1 => boolLoop [] s1.length s1

/-- FUStringConversion.hpp 570-580: `ToString(builder, Int32List)`: the loop over the values after the first. -/
def writeRest (w : FBld.Bld → Int → Option FBld.Bld) (b : FBld.Bld) : List Int → Option FBld.Bld
  | [] => some b
  | x :: xs => (FBld.appendChar b 32).bind fun b1 => (w b1 x).bind fun b2 => writeRest w b2 xs

/-- FUStringConversion.hpp 571-580: `ToString(builder, const Int32List&)`. -/
def writeInts (b : FBld.Bld) : List Int → Option FBld.Bld
  | [] => some b
  | x :: xs =>
    (if b.size ≠ 0 then FBld.appendChar b 32 else some b).bind fun b1 =>
    (FBld.appendI32 b1 x).bind fun b2 => writeRest FBld.appendI32 b2 xs

/-- `append(uint32)` on a value kept as an integer. -/
def writeU (b : FBld.Bld) (x : Int) : Option FBld.Bld := FBld.appendU32 b x.toNat

/-- FUStringConversion.hpp 583-590: `ToString(builder, const uint32* values, count)`. -/
def writeUInts (b : FBld.Bld) : List Int → Option FBld.Bld
  | [] => some b
  | x :: xs =>
    if b.size = 0 then (writeU b x).bind fun b1 => writeRest writeU b1 xs
    else writeRest writeU b (x :: xs)

end Verif.FConv
