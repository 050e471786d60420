import Verif.CurveEval
import Mathlib.Data.Rat.Floor
import Mathlib.Algebra.Order.Field.Rat

/-! # Terms used in the properties in CurveProps -/

namespace Verif.Curve

variable {K : Type} [Field K] [LinearOrder K]

variable [IsStrictOrderedRing K] [FloorRing K]

/-- A key without tangents. -/
def key (input output : ℚ) (interp : Interp) : Key ℚ := ⟨input, output, interp, (0, 0), (0, 0), 0, 0, 0⟩

def sample : List (Key ℚ) :=
  [key 0 0 .linear, key 1 2 .step, ⟨2, 5, .bezier, (5 / 3, 5), (7 / 3, 6), 0, 0, 0⟩, ⟨3, 8, .bezier, (8 / 3, 7), (10 / 3, 8), 0, 0, 0⟩, key 4 8 .linear, key 6 0 .linear]

end Verif.Curve
