import Verif.Base64

/-!
# RFC 4648, section 4: the Base64 format

Written from the RFC, with plain arithmetic on 24-bit groups, independently of the code's word operations.
-/

namespace Verif.Base64

/-- RFC 4648, table 1. -/
def rfcAlphabet : List Char :=
  "ABCDEFGHIJKLMNOPQRSTUVWXYZabcdefghijklmnopqrstuvwxyz0123456789+/".toList

/-- The character for a 6-bit value. -/
def digit (v : Fin 64) : Byte := BitVec.ofNat 8 (rfcAlphabet.get (v.cast (by decide))).toNat

/-- The `k`-th 6-bit digit of a 24-bit group, `k = 3` being the first one written. -/
def sextet (n k : Nat) : Fin 64 := Fin.ofNat 64 (n / 64 ^ k)

/-- Groups of three bytes give four characters; a final group of two or one byte is padded with zero bits and `=`. -/
def rfcEncode : List Byte → List Byte
  | a :: b :: c :: rest =>
    let n := a.toNat * 65536 + b.toNat * 256 + c.toNat
    digit (sextet n 3) :: digit (sextet n 2) :: digit (sextet n 1) :: digit (sextet n 0) :: rfcEncode rest
  | [a, b] =>
    let n := a.toNat * 65536 + b.toNat * 256
    [digit (sextet n 3), digit (sextet n 2), digit (sextet n 1), 61#8]
  | [a] =>
    let n := a.toNat * 65536
    [digit (sextet n 3), digit (sextet n 2), 61#8, 61#8]
  | [] => []

/-- The 6-bit value of a character, if it is in the alphabet. -/
def rfcValue (c : Byte) : Option Nat := (rfcAlphabet.map Char.toNat).idxOf? c.toNat

/-- Decoding of a text without characters outside the alphabet: quartets, `=` only as the last one or two characters. -/
def rfcDecode : List Byte → Option (List Byte)
  | [] => some []
  | a :: b :: c :: d :: rest =>
    if d = 61#8 ∧ rest = [] then
      if c = 61#8 then do
        let n := (← rfcValue a) * 64 ^ 3 + (← rfcValue b) * 64 ^ 2
        some [BitVec.ofNat 8 (n / 65536)]
      else do
        let n := (← rfcValue a) * 64 ^ 3 + (← rfcValue b) * 64 ^ 2 + (← rfcValue c) * 64
        some [BitVec.ofNat 8 (n / 65536), BitVec.ofNat 8 (n / 256)]
    else do
      let n := (← rfcValue a) * 64 ^ 3 + (← rfcValue b) * 64 ^ 2 + (← rfcValue c) * 64 + (← rfcValue d)
      let r ← rfcDecode rest
      some (BitVec.ofNat 8 (n / 65536) :: BitVec.ofNat 8 (n / 256) :: BitVec.ofNat 8 n :: r)
  | _ => none

end Verif.Base64
