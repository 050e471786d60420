import Verif.ExtraLemmas

/-! # Terms used in the properties in ExtraProps -/

namespace Verif.FExtra

open Verif.FStr (Ch)

/-- What a search for a name in a list must return: the position of the first entry with the name, or nothing if there is none. -/
def IsFirst {α : Type} (key : α → Text) (l : List α) (t : Text) : Option Nat → Prop
  | some i => ∃ x, l[i]? = some x ∧ key x = t ∧ ∀ (j : Nat) (y : α), j < i → l[j]? = some y → key y ≠ t
  | none => ∀ x ∈ l, key x ≠ t

end Verif.FExtra
