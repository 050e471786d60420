import Verif.ConvFloatLemmas
import Verif.ConvProps
import Mathlib.Tactic.NormNum

/-! # Terms used in the properties in ConvFloatProps -/

namespace Verif.FConv

open Verif.FStr (Ch)

/-- The text of a nonzero finite number in the format `%.6g`: sign, integer digits, optional fraction digits, optional exponent with an
explicit sign and at least two digits. -/
structure GText where
  neg : Bool
  int : List Ch
  frac : Option (List Ch)
  ex : Option (Bool × List Ch)

def GText.text (G : GText) : List Ch :=
  (if G.neg then [45] else []) ++ G.int ++ fracText G.frac ++
    (match G.ex with | none => [] | some x => 101 :: (if x.1 then 45 else 43) :: x.2)

def GText.value (G : GText) : ℚ :=
  (if G.neg then -1 else 1) *
    (decVal G.int + fracVal G.frac) *
    (match G.ex with | none => 1 | some x => 10 ^ ((if x.1 then -1 else 1) * (decVal x.2 : Int)))

/-- At most six significant digits, exponent of two or three digits that is not zero. -/
def GText.WF (G : GText) : Prop :=
  (∀ c ∈ G.int, IsDigit c) ∧ G.int ≠ [] ∧ G.int.length ≤ 6 ∧ (∀ F ∈ G.frac, (∀ c ∈ F, IsDigit c) ∧ F.length ≤ 10) ∧
  ∀ x ∈ G.ex, (∀ c ∈ x.2, IsDigit c) ∧ decVal x.2 ≠ 0 ∧ x.2.length ≤ 3

end Verif.FConv
