import Verif.StrSearch
import Mathlib.Data.List.Infix

/-! # Terms used in the properties in StrSearchProps -/

namespace Verif.FStr

/-- `r` is the first position at or after `off` satisfying `P`; `npos` if there is none. -/
def First (P : Nat → Prop) (off r : Nat) : Prop :=
  (off ≤ r ∧ P r ∧ ∀ i, off ≤ i → i < r → ¬ P i) ∨ (r = npos ∧ ∀ i, off ≤ i → ¬ P i)

/-- `r` is the last position at or after `off` satisfying `P`; `npos` if there is none. -/
def Last (P : Nat → Prop) (off r : Nat) : Prop :=
  (off ≤ r ∧ P r ∧ ∀ i, r < i → ¬ P i) ∨ (r = npos ∧ ∀ i, off ≤ i → ¬ P i)

/-- The buffer of a string holding the text `xs`. -/
def IsBuf (buf xs : List Ch) : Prop := buf = xs ++ [0] ∨ (buf = [] ∧ xs = [])

end Verif.FStr
