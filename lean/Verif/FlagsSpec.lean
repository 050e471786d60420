import Verif.Flags
import Mathlib.Tactic.Common

/-! # Terms used in the properties in FlagsProps -/

namespace Verif.FFlags

/-- A flag of an object: the class that declares it, as the number of steps from the object's class towards the root, and its local
position. -/
structure Flag where
  up : Nat
  pos : Nat
deriving DecidableEq

/-- Specification: `counts` are the flag counts of the object's class and its ancestors. The flag is declared by one of them, with a position below
this class's count. -/
def Flag.Declared (counts : List Nat) (f : Flag) : Prop := ∃ c, counts[f.up]? = some c ∧ f.pos < c

end Verif.FFlags
