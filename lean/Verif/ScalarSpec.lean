import Verif.Scalar

/-!
# Specification of the numeric helpers (C105, C106)
-/

namespace Verif.FScalar

open Verif.Geo (V3 V4)

/-- `r` is `val` brought into the range by whole numbers of its length. -/
def Wrapped {K : Type} [Field K] [LinearOrder K] (val mn mx r : K) : Prop := mn ≤ r ∧ r ≤ mx ∧ ∃ k : ℤ, val = r + k * (mx - mn)

/-- The same, for integers. -/
def WrappedInt (val mn mx r : Int) : Prop := mn ≤ r ∧ r ≤ mx ∧ ∃ k : ℤ, val = r + k * (mx - mn)

/-- The dot product of two vectors. -/
def inner {K : Type} [Field K] (a b : V3 K) : K := a.x * b.x + a.y * b.y + a.z * b.z

/-- `u` is the vector of length 1 in the direction of `a`. -/
def Direction (a u : V3 ℝ) : Prop := inner u u = 1 ∧ ∃ t : ℝ, 0 < t ∧ a = ⟨t * u.x, t * u.y, t * u.z⟩

/-- `p` is the foot of the perpendicular from `a` to the line along `b`. -/
def Foot {K : Type} [Field K] (a b p : V3 K) : Prop := (∃ t : K, p = ⟨t * b.x, t * b.y, t * b.z⟩) ∧ inner ⟨a.x - p.x, a.y - p.y, a.z - p.z⟩ b = 0

end Verif.FScalar
