import Verif.Version
import Verif.ConvProps
import Mathlib.Data.List.Lex
import Mathlib.Tactic.Common

/-! # Terms used in the properties in VersionProps -/

namespace Verif.FVer

open Verif.FStr (Ch)
open Verif.FConv
open Verif.FBld (decimal)

/-- Specification: the lexicographic order on (major, minor, revision). -/
def Before (a b : Version) : Prop := [a.major, a.minor, a.revision] < [b.major, b.minor, b.revision]

end Verif.FVer
