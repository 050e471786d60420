import Verif.Str

/-!
# Model of `FUStringBuilderT<char>` (FUtils/FUStringBuilder.h, FUStringBuilder.hpp, FUStringBuilder.cpp)

The buffer is a list of `reserved` cells, a cell being `none` while it was never written; a NULL buffer is the empty list. A
write outside the buffer, a read outside the buffer and a read of an unwritten cell are undefined (`none`). `memcpy` of no bytes
from a NULL buffer is taken to do nothing. `new` never fails. Sizes do not wrap around at 2^64. `sprintf` is the C library's: the
model only says that `%u` and `%i` print the canonical numeral, which takes at most 11 of the 128 characters available.
-/

namespace Verif.FBld

open Verif.FStr (Ch)

/-- FUStringBuilder.h 38-40: `buffer` and `reserved` (its length), `size`. -/
structure Bld where
  buf : List (Option Ch)
  size : Nat
deriving DecidableEq, Repr

/-- A builder without a buffer: `buffer = NULL; size = 0; reserved = 0`. -/
def Bld.null : Bld := ⟨[], 0⟩

/-- `reserved`. -/
def Bld.reserved (v : Bld) : Nat := v.buf.length

/-- A store into the buffer. -/
def poke (b : List (Option Ch)) (i : Nat) (c : Ch) : Option (List (Option Ch)) :=
  if i < b.length then some (b.set i (some c)) else none

/-- A load from the buffer. -/
def peek (b : List (Option Ch)) (i : Nat) : Option Ch := (b[i]?).join

/-- FUStringBuilder.hpp 134-161: `reserve`. -/
def reserve (v : Bld) (n : Nat) : Bld :=
  if n > v.reserved then ⟨v.buf.take v.size ++ List.replicate (n - v.size) none, v.size⟩
  else if n = 0 then ⟨[], 0⟩
  else if n < v.reserved then ⟨v.buf.take (min v.size n) ++ List.replicate (n - min v.size n) none, min v.size n⟩
  else v

/-- FUStringBuilder.hpp 122-126: `enlarge`. -/
def enlarge (v : Bld) (minimum : Nat) : Bld := reserve v (max (v.reserved + minimum + 32) (2 * v.reserved + 32))

/-- FUStringBuilder.hpp 168, 182: `buffer[size++] = c`. -/
def put (v : Bld) (c : Ch) : Option Bld := (poke v.buf v.size c).map fun b => ⟨b, v.size + 1⟩

/-- FUStringBuilder.hpp 163-169: `append(Char c)`. -/
def appendChar (v : Bld) (c : Ch) : Option Bld := put (if v.size + 1 ≥ v.reserved then enlarge v 2 else v) c

/-- FUStringBuilder.hpp 173-184 (and 172): `append(const Char* sz)` for memory `mem` at `sz`. -/
def appendText (v : Bld) : List Ch → Option Bld
  | [] => none
  | c :: rest =>
    if c = 0 then some v
    else (put (if v.size ≥ v.reserved then enlarge v 64 else v) c).bind fun v' => appendText v' rest

/-- `memcpy(buffer + i, xs, |xs|)` of initialised or uninitialised cells. -/
def blit (b : List (Option Ch)) (i : Nat) (xs : List (Option Ch)) : Option (List (Option Ch)) :=
  if i + xs.length ≤ b.length then some (b.take i ++ xs ++ b.drop (i + xs.length)) else none

/-- FUStringBuilder.hpp 185-196: `append(const Char* sz, size_t len)`, reading `len` characters of the memory `mem`. -/
def appendLen (v : Bld) (mem : List Ch) (len : Nat) : Option Bld :=
  if mem.length < len then none
  else
    let v1 := if v.size + len ≥ v.reserved then enlarge v (max 64 (v.size + len + 1)) else v
    (blit v1.buf v1.size ((mem.take len).map some)).map fun b => ⟨b, v1.size + len⟩

/-- FUStringBuilder.hpp 202: the growth step of `append(const FUStringBuilderT& b)` for `b.size = n`. -/
def growFor (v : Bld) (n : Nat) : Bld := if v.size + n ≥ v.reserved then enlarge v (64 + v.size + n - v.reserved) else v

/-- FUStringBuilder.hpp 199-205: `append(const FUStringBuilderT& b)` for another builder `b`. -/
def appendBld (v b : Bld) : Option Bld :=
  if b.buf.length < b.size then none
  else (blit (growFor v b.size).buf (growFor v b.size).size (b.buf.take b.size)).map fun x =>
    ⟨x, (growFor v b.size).size + b.size⟩

/-- FUStringBuilder.hpp 199-205: `append(*this)`: the source is the buffer after the growth step. -/
def appendSelf (v : Bld) : Option Bld :=
  if (growFor v v.size).buf.length < v.size then none
  else (blit (growFor v v.size).buf (growFor v v.size).size ((growFor v v.size).buf.take v.size)).map fun x =>
    ⟨x, (growFor v v.size).size + v.size⟩

/-- `sprintf("%u", n)`: the digits of `n`. -/
def decimal (n : Nat) : List Ch := if n < 10 then [48 + n] else decimal (n / 10) ++ [48 + ((n % 10 : Nat) : Int)]
termination_by n

/-- `sprintf("%i", i)`. -/
def decimalInt (i : Int) : List Ch := if i < 0 then 45 :: decimal i.natAbs else decimal i.natAbs

/-- FUStringBuilder.cpp 34-39: `append(uint32 i)`. -/
def appendU32 (v : Bld) (n : Nat) : Option Bld := appendText v (decimal (n % 2 ^ 32) ++ [0])

/-- FUStringBuilder.cpp 41-46: `append(uint64 i)`: the cast to `unsigned int` drops the high half. -/
def appendU64 (v : Bld) (n : Nat) : Option Bld := appendText v (decimal (n % 2 ^ 32) ++ [0])

/-- FUStringBuilder.cpp 48-53: `append(int32 i)`. -/
def appendI32 (v : Bld) (i : Int) : Option Bld := appendText v (decimalInt i ++ [0])

/-- FUStringBuilder.hpp 301-304: one hexadecimal digit. -/
def hexDigit (d : Nat) : Ch := if d ≤ 9 then 48 + d else 65 + (d - 10)

/-- FUStringBuilder.hpp 296-305: `appendHex(uint8 i)`. -/
def appendHex8 (v : Bld) (i : Nat) : Option Bld :=
  (appendChar v (hexDigit (i / 16 % 16))).bind fun v' => appendChar v' (hexDigit (i % 16))

/-- FUStringBuilder.h 129: `appendHex<T>`: the bytes of `i` in memory order (little endian), `n = sizeof(T)`. -/
def appendHexT (v : Bld) (i : Nat) : Nat → Option Bld
  | 0 => some v
  | n + 1 => (appendHex8 v (i % 256)).bind fun v' => appendHexT v' (i / 256) n

/-- FUStringBuilder.hpp 289-294: `appendLine`. -/
def appendLine (v : Bld) (mem : List Ch) : Option Bld := (appendText v mem).bind fun v' => appendChar v' 10

/-- FUStringBuilder.hpp 128-132: `clear`. -/
def clear (v : Bld) : Bld := ⟨v.buf, 0⟩

/-- FUStringBuilder.h 187: `pop_back`. -/
def popBack (v : Bld) : Bld := ⟨v.buf, v.size - 1⟩

/-- `(int32) n` of a `size_t`. -/
def toInt32 (n : Nat) : Int := Int.bmod n (2 ^ 32)

/-- FUStringBuilder.hpp 307-311: `remove(start)`. -/
def removeFrom (v : Bld) (start : Int) : Bld := if toInt32 v.size > start ∧ start ≥ 0 then ⟨v.buf, start.toNat⟩ else v

/-- FUStringBuilder.hpp 320-323: the loop of `remove(start, end)`, `n` iterations from `p`. -/
def slide (b : List (Option Ch)) (p diff : Nat) : Nat → Option (List (Option Ch))
  | 0 => some b
  | n + 1 => if p + diff < b.length then slide (b.set p (b[p + diff]?).join) (p + 1) diff n else none

/-- FUStringBuilder.hpp 313-326: `remove(start, end)`; overflow of `end - start` is undefined. -/
def removeRange (v : Bld) (start stop : Int) : Option Bld :=
  if stop - start < -2 ^ 31 ∨ stop - start ≥ 2 ^ 31 then none
  else if toInt32 v.size ≥ stop ∧ start ≥ 0 ∧ stop - start > 0 then
    (slide v.buf start.toNat (stop - start).toNat (v.size - (stop - start).toNat - start.toNat)).map fun b =>
      ⟨b, v.size - (stop - start).toNat⟩
  else some v

/-- FUStringBuilder.hpp 328-335: `ToCharPtr`: the builder (grown through the `const_cast`) whose buffer is returned. -/
def toCharPtr (v : Bld) : Option Bld :=
  (poke (if v.size + 1 > v.reserved then enlarge v 1 else v).buf v.size 0).map fun b => ⟨b, v.size⟩

/-- The text at an address: the characters before the first zero; `none` if the buffer ends or is unwritten before it. -/
def textAt : List (Option Ch) → Option (List Ch)
  | [] => none
  | none :: _ => none
  | some c :: rest => if c = 0 then some [] else (textAt rest).map (c :: ·)

/-- FUStringBuilder.cpp 29-32: the text of `ToString()`, which copies from `ToCharPtr()` to the first zero. -/
def toText (v : Bld) : Option (List Ch) := (toCharPtr v).bind fun v' => textAt v'.buf

/-- FUStringBuilder.hpp 343-346: the loop of `index`, `n` iterations from `p`. -/
def indexLoop (b : List (Option Ch)) (c : Ch) (p : Nat) : Nat → Option Int
  | 0 => some (-1)
  | n + 1 => (peek b p).bind fun x => if x = c then some p else indexLoop b c (p + 1) n

/-- FUStringBuilder.hpp 337-349: `index`; the loop ends at `buffer + size + 1`. -/
def index (v : Bld) (c : Ch) : Option Int := if v.buf.length > 0 ∧ v.size > 0 then indexLoop v.buf c 0 (v.size + 1) else some (-1)

/-- FUStringBuilder.hpp 356-359: the loop of `rindex` from `p` down to, not including, the first character. -/
def rindexLoop (b : List (Option Ch)) (c : Ch) : Nat → Option Int
  | 0 => some (-1)
  | p + 1 => (peek b (p + 1)).bind fun x => if x = c then some ((p + 1 : Nat) : Int) else rindexLoop b c p

/-- FUStringBuilder.hpp 351-362: `rindex`. -/
def rindex (v : Bld) (c : Ch) : Option Int := if v.buf.length > 0 ∧ v.size > 0 then rindexLoop v.buf c (v.size - 1) else some (-1)

/-- FUStringBuilder.h 222: `back`; the assertion makes an empty builder answer 0. -/
def back (v : Bld) : Option Ch := if v.size > 0 then peek v.buf (v.size - 1) else some 0

/-- FUStringBuilder.hpp 91: the filling loop of the repeat constructor. -/
def fill (v : Bld) (c : Ch) : Nat → Option Bld
  | 0 => some v
  | n + 1 => (put v c).bind fun v' => fill v' c n

/-- FUStringBuilder.hpp 83-92: the repeat constructor. -/
def ofRepeat (c : Ch) (count : Nat) : Option Bld := fill (reserve Bld.null (count + 32)) c count

/-- FUStringBuilder.hpp 70-81 (and 59-68): the constructor from a text. -/
def ofText (mem : List Ch) : Option Bld := (FStr.strlen mem).bind fun n => appendText (reserve Bld.null (n + 32)) mem

/-- FUStringBuilder.hpp 94-114: the constructors with a reservation; `0` stands for the debug default constructor. -/
def ofReserve (n : Nat) : Bld := reserve Bld.null n

end Verif.FBld
