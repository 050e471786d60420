import Verif.Str

/-!
# Specification for the text conversions: blank separated tokens and the numbers they denote
-/

namespace Verif.FConv

open Verif.FStr (Ch)

/-- XML white space: space, tab, line feed, carriage return. -/
def IsSpace (c : Ch) : Prop := c = 32 ∨ c = 9 ∨ c = 10 ∨ c = 13

instance (c : Ch) : Decidable (IsSpace c) := by unfold IsSpace; infer_instance

/-- A decimal digit character. -/
def IsDigit (c : Ch) : Prop := 48 ≤ c ∧ c ≤ 57

instance (c : Ch) : Decidable (IsDigit c) := by unfold IsDigit; infer_instance

/-- The maximal runs of non-blank characters of a text, in order; `cur` is the run being read. -/
def tokensFrom (cur : List Ch) : List Ch → List (List Ch)
  | [] => if cur = [] then [] else [cur]
  | c :: rest => if IsSpace c then (if cur = [] then [] else [cur]) ++ tokensFrom [] rest else tokensFrom (cur ++ [c]) rest

/-- The blank separated tokens of a text. -/
def tokens (t : List Ch) : List (List Ch) := tokensFrom [] t

/-- The number a digit string denotes in base 10: the head is the most significant digit. -/
def decVal : List Ch → Nat
  | [] => 0
  | c :: rest => (c - 48).toNat * 10 ^ rest.length + decVal rest

/-- The unsigned number at the start of a token: its longest prefix of digits. -/
def tokNat (tok : List Ch) : Nat := decVal (tok.takeWhile fun c => decide (IsDigit c))

/-- The signed number at the start of a token: an optional minus and its longest prefix of digits. -/
def tokInt : List Ch → Int
  | 45 :: rest => -(tokNat rest : Int)
  | tok => tokNat tok

end Verif.FConv
