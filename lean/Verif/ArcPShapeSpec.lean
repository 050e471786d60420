import Verif.ArcPShape
import Verif.ArcSolidSpec

/-! # What physics shapes should be after saving and loading -/

namespace Verif.FArc

open Verif.FConv (shown)

/-- A rotation or a translation. -/
def IsRigid (t : Trans) : Prop := (∃ x, t = .translation x) ∨ ∃ x a, t = .rotation x a

/-- The mass and the density are given and not zero, or the density is said to be more accurate and is not zero. -/
def GoodMass (s : PShape) : Prop := (∃ d, s.density = some d ∧ d ≠ 0) ∧ (s.accurate = false → ∃ m, s.mass = some m ∧ m ≠ 0)

/-- The shape has no plane. -/
def NoPlane (s : PShape) : Prop := ∀ x, s.solid = some x → ¬ x.isPlane

end Verif.FArc
