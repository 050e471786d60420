import Verif.Vec

/-!
# Model of `fm::stringT<char>` (FUtils/FUString.h)

The string is an `fm::vector<char>` (the model of `Verif/Vec.lean` with `triv = true`) that also stores the terminator.
Characters are the values of a signed `char`, as integers. A `const CH*` argument is the memory from that address on: a list in
which the first `0` ends the text; reading past the end of the list is undefined (`none`). A NULL argument, which the code
treats like the empty text, is not modelled separately. Addresses are 64 bits wide and `npos` is `2^64 - 1`.
-/

namespace Verif.FStr

open Verif.FVec

/-- A `char` value. -/
abbrev Ch := Int

/-- The vector underneath. -/
abbrev Str := Vec Ch

/-- FUString.h 45: `npos`. -/
def npos : Nat := 2 ^ 64 - 1

/-- FUString.h 101-102: `length()`, `size()`. -/
def length (v : Str) : Nat := if v.sized > 1 then v.sized - 1 else 0

/-- FUString.h 117: `empty()`. -/
def empty (v : Str) : Bool := v.sized ≤ 1

/-- FMArray.h 571: `Parent::back() = c`; undefined on an empty buffer. -/
def setBack (v : Str) (c : Ch) : Option Str := if v.sized = 0 then none else put true v (v.sized - 1) (some c)

/-- `std::char_traits<CH>::length(c)`. -/
def strlen : List Ch → Option Nat
  | [] => none
  | c :: rest => if c = 0 then some 0 else (strlen rest).map (· + 1)

/-- FUString.h 48: the default constructor. -/
def default : Option Str := pushBack true Vec.empty (.val 0)

/-- FUString.h 433-437: `resize(size)`. -/
def resize (v : Str) (n : Nat) : Option Str := (FVec.resize true 0 v (n + 1)).bind fun v' => setBack v' 0

/-- FUString.h 446-450: `resize(count, value)`. -/
def resizeWith (v : Str) (n : Nat) (c : Ch) : Option Str :=
  (FVec.resizeWith true v (n + 1) (.val c)).bind fun v' => setBack v' 0

/-- FUString.h 173-177, 193-197: open a gap of `n` characters at `off` in a string of length `orig` and copy `xs` into it. -/
def spliceIn (v : Str) (orig off : Nat) (xs : List Ch) : Option Str :=
  (if off < orig then memmove v (off + xs.length) off (orig - off) else some v).bind fun v1 => copyLoop true v1 off xs

/-- FUString.h 165: `*str != 0`. -/
def startsText : List Ch → Option Bool
  | [] => none
  | c :: _ => some (decide (c ≠ 0))

/-- FUString.h 163-180: `insert(offset, const CH* str, count)`. -/
def insertText (v : Str) (off : Nat) (mem : List Ch) (count : Nat) : Option Str :=
  (startsText mem).bind fun b =>
  if b then
    (strlen mem).bind fun n =>
    (resize v (length v + min n count)).bind fun v1 =>
    (spliceIn v1 (length v) (min off (length v)) (mem.take (min n count))).bind fun v2 => setBack v2 0
  else some v

/-- The initialised characters of the buffer, terminator included; `none` when one of them was never written. -/
def cells (v : Str) : Option (List Ch) := (v.buf.take v.sized).mapM id

/-- FUString.h 203-208: `c_str()`: the memory it points to. -/
def cStr (v : Str) : Option (List Ch) := if v.sized = 0 then some [0] else cells v

/-- FUString.h 185-199: `insert(offset, const stringT& str)` for another string `str`. -/
def insertStr (v : Str) (off : Nat) (str : Str) : Option Str :=
  if length str > 0 then
    (resize v (length v + length str)).bind fun v1 =>
    (cStr str).bind fun mem => spliceIn v1 (length v) (min off (length v)) (mem.take (length str))
  else some v

/-- FUString.h 133-136, 142-145: the two `append`s that go through `insert(npos, ...)`. -/
def appendStr (v : Str) (str : Str) : Option Str := insertStr v npos str
def appendText (v : Str) (mem : List Ch) (count : Nat := npos) : Option Str := insertText v npos mem count

/-- FUString.h 149-156: `append(const CH& c)`. -/
def appendChar (v : Str) (c : Ch) : Option Str :=
  if c ≠ 0 then (setBack v c).bind fun v' => pushBack true v' (.val 0) else some v

/-- FUString.h 59-63: `stringT(const CH* c)`. -/
def ofText (mem : List Ch) : Option Str :=
  (appendText Vec.empty mem).bind fun v =>
  (startsText mem).bind fun b => if b then some v else pushBack true v (.val 0)

/-- FUString.h 69-86: `stringT(const CH* c, size_t length)`. -/
def ofPrefix (mem : List Ch) (len : Nat) : Option Str :=
  if len = 0 then some Vec.empty
  else if len ≠ npos then
    (strlen mem).bind fun n =>
    (FVec.resize true 0 Vec.empty (min len n + 1)).bind fun v =>
    (copyLoop true v 0 (mem.take (min len n))).bind fun v => setBack v 0
  else ofText mem

/-- FUString.h 91-96: `stringT(size_t length, const CH& c)`. -/
def ofRepeat (n : Nat) (c : Ch) : Option Str :=
  (reserve true Vec.empty (n + 1)).bind fun v =>
  (insertMany true v 0 n (.val c)).bind fun v => pushBack true v (.val 0)

/-- FUString.h 112: `pop_back()`. -/
def popBack (v : Str) : Option Str :=
  if v.sized > 0 then (FVec.popBack true v).bind fun v' => setBack v' 0 else some v

/-- FUString.h 124-129: `substr(start, count)`. -/
def substr (v : Str) (start count : Nat) : Option Str :=
  if start ≥ length v then default
  else (cStr v).bind fun mem =>
    ofPrefix (mem.drop start) (if count = npos ∨ (count + start) % 2 ^ 64 > length v then length v - start else count)

/-- FUString.h 417-424: `erase(start, end)`. -/
def erase (v : Str) (start fin : Nat) : Option Str :=
  if start < length v ∧ start < fin then eraseRange true v start (if fin > length v then length v else fin) else some v

/-- FMArray.h 300: `clear()`, inherited. -/
def clear (v : Str) : Option Str := FVec.clear true v

/-- FUString.h 52 through FMArray.h 80-83: the copy constructor. Only determinate contents. -/
def copy (v : Str) : Option Str := (cells v).bind fun xs => insertRange true Vec.empty 0 xs

/-- FUString.h 55 through FMArray.h 599-619: assignment from another string. -/
def assign (v : Str) (str : Str) : Option Str := (cells str).bind fun xs => FVec.assign true 0 v xs

/-- FUString.h 480-481: the loop of `operator<` over the two memories. -/
def ltLoop : List Ch → List Ch → Option Bool
  | a :: as, b :: bs => if a ≠ 0 ∧ b ≠ 0 ∧ a = b then ltLoop as bs else some (decide (a < b))
  | _, _ => none

/-- FUString.h 477-482: `operator<`. -/
def lt (v w : Str) : Option Bool := (cStr v).bind fun a => (cStr w).bind fun b => ltLoop a b

/-- FUString.h 492-493, 504-505: the loop of `operator==` and `operator!=`. -/
def eqLoop : List Ch → List Ch → Option Bool
  | a :: as, b :: bs => if a ≠ 0 ∧ a = b then eqLoop as bs else some (decide (a = b))
  | _, _ => none

/-- FUString.h 488-494: `operator==`. -/
def eq (v w : Str) : Option Bool :=
  if length v ≠ length w then some false else (cStr v).bind fun a => (cStr w).bind fun b => eqLoop a b

/-- FUString.h 500-506: `operator!=`. -/
def ne (v w : Str) : Option Bool :=
  if length v ≠ length w then some true else (cStr v).bind fun a => (cStr w).bind fun b => (eqLoop a b).map not

/-- FUString.h 460: `operator+`. -/
def concat (v w : Str) : Option Str := (copy v).bind fun c => appendStr c w

/-- FUString.h 185-199 with `str` the string itself: `str.length()` is read first, `str.c_str()` after the resize, and the
copied range starts at the front of the (already shifted) buffer. `memcpy` between overlapping ranges is undefined. -/
def insertSelf (v : Str) (off : Nat) : Option Str :=
  let n := length v
  let o := min off n
  if n > 0 then
    (resize v (n + n)).bind fun v1 =>
    (if o < n then memmove v1 (o + n) o (n - o) else some v1).bind fun v2 =>
    if o ≠ 0 ∧ o < n then none
    else (((v2.buf.take n).mapM id)).bind fun xs => copyLoop true v2 o xs
  else some v

end Verif.FStr
