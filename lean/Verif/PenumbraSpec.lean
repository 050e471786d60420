import Verif.Penumbra
import Verif.CurveMultiSpec

/-!
# Specification of the penumbra of a light (C140, C141)

The penumbra is on both sides of the edge of the cone: a penumbra `p` makes the cone wider by `2 * p`, or narrower if `p` is negative. The fall-off angle of the light is
the smaller one of the two cones and its outer angle the larger one.
-/

namespace Verif.Penumbra

open Verif.Curve

variable {K : Type} [Field K] [LinearOrder K]

/-- The fall-off angle of a light with the given cone and penumbra. -/
def innerCone (f p : K) : K := min f (f + 2 * p)

/-- The outer angle of a light with the given cone and penumbra. -/
def outerCone (f p : K) : K := max f (f + 2 * p)

/-- The value of a curve at a time. -/
def sample [FloorRing K] (twoD : Bool) (n : Nat) (c : CurveData K) (x : K) : Option K := evaluate twoD n c.pre c.post c.keys x

/-- A curve with keys, all linear, in the order of time, and constant outside of its keys. -/
def LinearCurve (c : CurveData K) : Prop := c.keys ≠ [] ∧ Spaced c.keys ∧ (∀ k ∈ c.keys, k.interp = .linear) ∧ c.pre = .constant ∧ c.post = .constant

/-- Keys with some keys added, all of them with value 0. -/
inductive ZerosAdded : List (Key K) → List (Key K) → Prop where
  | nil : ZerosAdded [] []
  | keep (k : Key K) {a b : List (Key K)} : ZerosAdded a b → ZerosAdded (k :: a) (k :: b)
  | add (k : Key K) {a b : List (Key K)} : k.output = 0 → ZerosAdded a b → ZerosAdded a (k :: b)

/-- The curves of the penumbra: those given, and without any those of the outer angle. -/
def penumbraCurves (l : Light K) (pen : Option (List Nat)) : List Nat :=
  match pen with
  | none => l.outerCurves
  | some [] => l.outerCurves
  | some (j :: js) => j :: js

end Verif.Penumbra
