import Verif.Conv
import Mathlib.Algebra.Order.Field.Rat
import Mathlib.Tactic.Ring
import Mathlib.Tactic.FieldSimp

/-!
# Model of `FUStringConversion::ToFloat`, of the functions built on it and of the printing of floats

Numbers are exact rationals: the roundings of `double`, `float` and `powf` are not modelled, so the theorems are about which number a
text denotes to the parser. The result is always finite: the local `infinity` is reset before it is tested.
-/

namespace Verif.FConv

open Verif.FStr (Ch)

/-- FUStringConversion.hpp 67-72: `val`, `decimals`, `exponent`, `infinity`. -/
structure FState where
  val : ℚ
  dec : ℚ
  exp : Int
  inf : Bool

/-- FUStringConversion.hpp 90: `s -= 2` after the exponent and `++s` at line 94: one character before the cursor `x` reached from `s`
(both inside the text; the intermediate pointer, two before, is not modelled). -/
def stepBack (s x : List Ch) : List Ch := s.drop (s.length - (x.length + 1))

/-- FUStringConversion.hpp 74-95: the loop over the characters of the number. -/
def floatLoop (ov : Ov) (st : FState) : List Ch → Option (FState × List Ch)
  | [] => none
  | c :: r =>
    if c = 0 then some (st, c :: r)
    else if c = 46 then floatLoop ov { st with dec := 1 } r
    else if digit c then floatLoop ov { st with val := st.val * 10 + ((c - 48 : Int) : ℚ), dec := st.dec * 10 } r
    else if c = 101 ∨ c = 69 then (toInt32 ov r).map fun x => ({ st with exp := x.1 }, stepBack (c :: r) x.2)
    else if c = 73 then some ({ st with inf := true }, c :: r)
    else some (st, c :: r)

/-- FUStringConversion.hpp 101-112: the characters consumed by the test for infinity. -/
def infTail (s : List Ch) : Option (List Ch) :=
  (deref s).bind fun c1 => if c1 ≠ 73 then some (s.drop 1)
  else (deref (s.drop 1)).bind fun c2 => if c2 ≠ 78 then some (s.drop 2)
  else (deref (s.drop 2)).map fun _ => s.drop 3

/-- FUStringConversion.hpp 118-120: the value. -/
def floatValue (sign : Int) (st : FState) : ℚ :=
  let v := st.val * sign / (if st.dec = 0 then 1 else st.dec)
  if st.exp ≠ 0 then v * 10 ^ st.exp else v

/-- FUStringConversion.hpp 57-129: `ToFloat(const CH** value)`. -/
def toFloat (ov : Ov) (s : List Ch) : Option (ℚ × List Ch) :=
  (deref s).bind fun c =>
  if c = 0 then some (0, s)
  else (skipWhile blank s).bind fun s1 => (signI s1).bind fun sg =>
    (floatLoop ov ⟨0, 0, 0, false⟩ sg.2).bind fun r =>
    (if r.1.inf then infTail r.2 else some r.2).bind fun s2 =>
    (skipToken s2).map fun s3 => (floatValue sg.1 r.1, s3)

/-- FUStringBuilder.hpp 26-57: the loop of `FloatToString` over the text made by `fmt::format("{:.6g}", f)`; `sz` has 128 characters
and the terminator is written after the loop. -/
def cleanLoop (expFound clearLeading : Bool) (out : List Ch) : List Ch → List Ch
  | [] => out
  | c :: r =>
    if c = 43 then cleanLoop expFound clearLeading out r
    else if expFound then
      (if clearLeading && c = 48 then cleanLoop expFound clearLeading out r
       else cleanLoop expFound false (out ++ [c]) r)
    else cleanLoop (decide (c = 101)) clearLeading (out ++ [c]) r

/-- FUStringBuilder.hpp 26-57: `FloatToString`: the text left in `sz`; undefined if it does not fit. -/
def floatToString (fmt : List Ch) : Option (List Ch) :=
  if (cleanLoop false true [] fmt).length < 128 then some (cleanLoop false true [] fmt) else none

/-- A `float` value. -/
inductive Fl where
  | fin (q : ℚ) | inf | ninf | nan

/-- FUStringBuilder.hpp 207-231 (non-WIN32): the text appended for a `float`; `fmt q` is the text of `fmt::format("{:.6g}", q)`.
Comparing with NaN is always unequal, so a NaN reaches `fmt` as well, which prints "nan". `epsilon` is 2^-23. -/
def floatText (fmt : ℚ → List Ch) : Fl → Option (List Ch)
  | .fin q => if |q| < 1 / 2 ^ 23 then some [48] else floatToString (fmt q)
  | .inf => some [73, 78, 70]
  | .ninf => some [45, 73, 78, 70]
  | .nan => floatToString [110, 97, 110]

end Verif.FConv
