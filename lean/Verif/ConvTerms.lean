import Verif.ConvLemmas
import Verif.BuilderProps

/-! # Terms used in the properties in ConvProps -/

namespace Verif.FConv

open Verif.FStr (Ch)
open Verif.FBld (Bld Holds numeral)

/-- The text of a signed number. -/
def intNumeral (i : Int) : List Ch := (if i < 0 then [45] else []) ++ numeral i.natAbs

end Verif.FConv
