import Verif.ConvSpec
import Mathlib.Data.List.DropRight

/-! # Specification vocabulary for unique names (C21, C22) -/

namespace Verif.FUniq

open Verif.FStr (Ch)
open Verif.FConv (decVal IsDigit)

/-- The part of a name before its trailing digits. -/
def base (s : List Ch) : List Ch := s.rdropWhile fun c => decide (IsDigit c)

/-- The trailing digits of a name. -/
def digits (s : List Ch) : List Ch := s.rtakeWhile fun c => decide (IsDigit c)

/-- The number at the end of a name, in 32 bits; 2^32 - 1 stands for "no digits". -/
def number (s : List Ch) : Nat := if digits s = [] then 2 ^ 32 - 1 else decVal (digits s) % 2 ^ 32

/-- What a name is identified by: its base and its number. -/
def key (s : List Ch) : List Ch × Nat := (base s, number s)

/-- Names without digits at the end, or with a number below 2^32 - 1 written without leading zeros. -/
def Canonical (s : List Ch) : Prop :=
  digits s = [] ∨ (decVal (digits s) < 2 ^ 32 - 1 ∧ (digits s = [48] ∨ (digits s).head? ≠ some 48))

end Verif.FUniq
