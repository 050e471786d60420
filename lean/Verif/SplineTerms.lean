import Mathlib.Data.Rat.Defs
import Mathlib.Algebra.Order.Field.Rat
import Verif.SplineLemmas

/-! # Terms used in the properties in SplineProps -/

namespace Verif.FSpline

open Verif.FEff (Text text)

variable {P K : Type}

/-- The segments of a Bezier spline as the conversion to NURBS reads them. -/
def curve (s : Spline P K) : List (Seg P) := if s.closed then loopSegments s.cvs else segments s.cvs

/-- The sides of a linear spline (FCDGeometrySpline.h 104-108). -/
def polyline (s : Spline P K) : List (P × P) := if s.closed then loopSides s.cvs else sides s.cvs

/-- The segment runs exactly over the straight side, from its first end to the other without turning back. -/
def RunsAlong [AddCommGroup P] [Module ℝ P] (g : Seg P) (s : P × P) : Prop :=
  {x | ∃ t : ℝ, 0 ≤ t ∧ t ≤ 1 ∧ g.at t = x} = segment ℝ s.1 s.2
    ∧ ∃ f : ℝ → ℝ, f 0 = 0 ∧ f 1 = 1 ∧ (∀ a b, 0 ≤ a → a ≤ b → b ≤ 1 → f a ≤ f b) ∧ ∀ t, g.at t = s.1 + f t • (s.2 - s.1)

section linear

end linear

section nurbs

variable [Field K] [LinearOrder K]

end nurbs

section geometry

/-- All the splines have the type of the geometric spline; one without a type has none. -/
def Uniform (g : Geo P K) : Prop := ∀ s ∈ g.splines, s.kind.type = g.type

end geometry

end Verif.FSpline
