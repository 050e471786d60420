import Verif.Crc32
import Mathlib.Logic.Function.Iterate

/-! # Terms used in the properties in Crc32Props -/

namespace Verif.Crc32

/-- One clock of the register. -/
def clock (c : BitVec 32) : BitVec 32 := (c >>> 1) ^^^ (if c.getLsbD 0 then 0xEDB88320#32 else 0#32)

/-- A message bit enters the register. -/
def bitWord (b : Bool) : BitVec 32 := if b then 1#32 else 0#32

def feed (c : BitVec 32) : List Bool → BitVec 32
  | [] => c
  | b :: bs => feed (clock (c ^^^ bitWord b)) bs

/-- The bits of a byte, least significant first, and of a text. -/
def byteBits (b : BitVec 8) : List Bool := (List.range 8).map b.getLsbD

def textBits (t : List (BitVec 8)) : List Bool := t.flatMap byteBits

end Verif.Crc32
