import Verif.ConvMore
import Verif.ConvFloatProps
import Verif.StrSearchProps
import Mathlib.Data.List.TakeWhile
import Mathlib.Tactic.FinCases
import Mathlib.Data.Fintype.Basic

/-! # Terms used in the properties in ConvMoreProps -/

namespace Verif.FConv

open Verif.FStr (Ch)

/-- The value of the decimal a formatting library writes; `rnd q` is the number denoted. -/
def Formats (fmt : ℚ → List Ch) (rnd : ℚ → ℚ) : Prop :=
  ∀ q : ℚ, 1 / 2 ^ 23 ≤ |q| → ∃ G : GText, G.WF ∧ fmt q = G.text ∧ G.value = rnd q

/-- What a float becomes by being written: magnitudes below 2^-23 become zero, others are rounded to six digits. -/
def shown (rnd : ℚ → ℚ) (q : ℚ) : ℚ := if |q| < 1 / 2 ^ 23 then 0 else rnd q

end Verif.FConv
