import Verif.FitLemmas
import Verif.PolyProps

/-! # Terms used in the properties in FitProps -/

namespace Verif.FFit

open Verif.FPoly Verif.FUnify

/-- A set of a quad, a triangle and a quad, with a per-vertex source 0 and another source 1. -/
def sample (prim : Prim) (holes : List Nat) : PSet :=
  ⟨⟨⟨[4, 3, 4], holes, [⟨0, [0, 1, 2, 3, 0, 1, 4, 5, 4, 3, 2].map some⟩, ⟨1, [7, 7, 7, 7, 8, 8, 8, 9, 9, 9, 9].map some⟩], prim, 11⟩, [0, 1]⟩, [109]⟩

end Verif.FFit
