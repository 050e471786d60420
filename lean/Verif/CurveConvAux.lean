import Verif.CurveConvLemmas
import Mathlib.Algebra.Order.Field.Rat
import Mathlib.Data.Rat.Floor

/-! # Lemmas for the properties in CurveConvProps -/

namespace Verif.Curve

variable {K : Type} [Field K] [LinearOrder K] [IsStrictOrderedRing K] [FloorRing K]

/-- A Bezier curve and a TCB curve. -/
def bezierKeys : List (Key ℚ) := [⟨0, 0, .bezier, (0, 0), (1 / 2, 0), 0, 0, 0⟩, ⟨1, 1, .bezier, (1 / 2, 1), (1, 1), 0, 0, 0⟩]

theorem bezierKeys_free : NoTcbPair bezierKeys := by
  intro i s e hs _ h
  have := List.mem_of_getElem? hs
  simp only [bezierKeys, List.mem_cons, List.not_mem_nil, or_false] at this
  rcases this with rfl | rfl <;> simp at h

end Verif.Curve
