import Mathlib.Data.List.Basic

/-!
# Model of object flags (FUtils/FUParameterizable.h)
-/

namespace Verif.FFlags

/-- FUParameterizable.h 29: the mask of a flag: `1 << (Parent::nextAvailableBit + local_position)`. -/
def mask (firstBit pos : Nat) : BitVec 32 := (1#32) <<< (firstBit + pos)

/-- FUParameterizable.h 40 and FUObject.h 40: `nextAvailableBit` of the parent of the class that comes after the classes with these flag
counts, from the root `FUObject` down. -/
def nextAvailableBit : List Nat → Nat
  | [] => 0
  | c :: cs => nextAvailableBit cs + c

/-- FUParameterizable.h 30, 81: set to a value; the multiplication is with the `bool` as a number. -/
def assign (flags f : BitVec 32) (value : Bool) : BitVec 32 := (flags &&& ~~~f) ||| (f * (if value then 1#32 else 0#32))

/-- FUParameterizable.h 31, 86: set. -/
def set (flags f : BitVec 32) : BitVec 32 := flags ||| f

/-- FUParameterizable.h 32, 96: reset. -/
def reset (flags f : BitVec 32) : BitVec 32 := flags &&& ~~~f

/-- FUParameterizable.h 33: the value of a flag. -/
def get (flags f : BitVec 32) : Bool := (flags &&& f) ≠ 0

/-- FUParameterizable.h 91: `TestFlag`. -/
def test (flags f : BitVec 32) : BitVec 32 := flags &&& f

end Verif.FFlags
