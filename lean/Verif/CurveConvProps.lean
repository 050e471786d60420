import Verif.CurveConvAux
import Verif.CurveConvLemmas
import Mathlib.Algebra.Order.Field.Rat
import Mathlib.Data.Rat.Floor

/-! # C126: converted curves -/

namespace Verif.Curve

variable {K : Type} [Field K] [LinearOrder K] [IsStrictOrderedRing K] [FloorRing K]

/-- C126, for the values. When all values and all tangents of a curve are converted by `y ↦ c * y + d`, the curve has at each time the converted value of what
it had. Missing: pairs of TCB keys under two-dimensional evaluation, Bezier keys under one-dimensional evaluation when `d` is not 0, and a curve without keys
when `d` is not 0. -/
theorem values_partial (twoD : Bool) (n : Nat) (pre post : Infin) (keys : List (Key K)) (c d : K) (hne : keys ≠ [] ∨ d = 0)
    (hb : twoD = false → d = 0 ∨ ∀ k ∈ keys, k.interp ≠ .bezier) (ht : twoD = true → NoTcbPair keys) (x : K) :
    evaluate twoD n pre post (convertValues (some fun y => c * y + d) (some fun y => c * y + d) keys) x =
      (evaluate twoD n pre post keys x).map fun y => c * y + d := by
  have := evaluate_conv (a := 1) (b := 0) zero_lt_one (value_affine c d) hne (value_segments twoD n hb ht) pre post x
  rw [convertValues_eq, ← this, one_mul, add_zero]

@[inherit_doc bezierKeys]
def tcbKeys : List (Key ℚ) := [⟨0, 0, .tcb, (0, 0), (0, 0), 0, 0, 0⟩, ⟨1, 1, .tcb, (0, 0), (0, 0), 0, 0, 0⟩]

example : evaluate true 20 .constant .cycle bezierKeys (1 / 4) = some (7054985 / 67108864) ∧
    evaluate true 20 .constant .cycle (convertValues (some fun y => 100 * y + 3) (some fun y => 100 * y + 3) bezierKeys) (1 / 4) =
      some (100 * (7054985 / 67108864) + 3) := by
  have h : evaluate true 20 .constant .cycle bezierKeys (1 / 4) = some (7054985 / 67108864) := by decide +kernel
  exact ⟨h, by rw [values_partial true 20 .constant .cycle bezierKeys 100 3 (Or.inl (by simp [bezierKeys])) (fun h => nomatch h) (fun _ => bezierKeys_free), h]; rfl⟩

/-- C126 does not hold for pairs of TCB keys: the time of a control point is computed from a value (FCDAnimationCurve.cpp 457), so that larger values bend
the curve in time. -/
theorem values_tcb_violated : ∃ (keys : List (Key ℚ)) (c x : ℚ), (∀ k ∈ keys, k.interp = .tcb) ∧
    evaluate true 12 .constant .constant (convertValues (some fun y => c * y) (some fun y => c * y) keys) x ≠
      (evaluate true 12 .constant .constant keys x).map fun y => c * y :=
  ⟨tcbKeys, 100, 1 / 4, by decide, by decide +kernel⟩

/-- C126 does not hold for Bezier keys under one-dimensional evaluation and a conversion that moves 0: the weights of the four control values do not sum up
to 1. -/
theorem values_offset_violated : ∃ (keys : List (Key ℚ)) (d x : ℚ), evaluate false 12 .constant .constant keys x = some (3 / 8) ∧ d = 10 ∧
    evaluate false 12 .constant .constant (convertValues (some fun y => y + d) (some fun y => y + d) keys) x = some (63 / 8) :=
  ⟨bezierKeys, 10, 1 / 2, by decide +kernel, rfl, by decide +kernel⟩

/-- C126, for the times. When all times and all times of tangents of a curve are converted by `x ↦ a * x + b` with a positive `a`, the curve has at each
converted time the value it had. Missing: pairs of TCB keys under two-dimensional evaluation, and, if `a` is not 1, Bezier and TCB keys under two-dimensional
evaluation. -/
theorem times_partial (twoD : Bool) (n : Nat) (pre post : Infin) (keys : List (Key K)) (a b : K) (ha : 0 < a)
    (h1 : twoD = true → a = 1 ∨ ∀ k ∈ keys, k.interp ≠ .bezier ∧ k.interp ≠ .tcb) (ht : twoD = true → NoTcbPair keys) (x : K) :
    evaluate twoD n pre post (convertInputs (some fun y => a * y + b) (some fun y => a * y + b) keys) (a * x + b) = evaluate twoD n pre post keys x := by
  have := evaluate_conv ha (time_affine a b) (Or.inr rfl) (time_segments twoD n ha h1 ht) pre post x
  rw [convertInputs_eq, this]
  cases evaluate twoD n pre post keys x <;> simp

example : evaluate false 12 .constant .oscillate bezierKeys (1 / 4) = some (7 / 64) ∧
    evaluate false 12 .constant .oscillate (convertInputs (some fun y => 24 * y + 1) (some fun y => 24 * y + 1) bezierKeys) (24 * (1 / 4) + 1) = some (7 / 64) := by
  have h : evaluate false 12 .constant .oscillate bezierKeys (1 / 4) = some (7 / 64) := by decide +kernel
  exact ⟨h, by rw [times_partial false 12 .constant .oscillate bezierKeys 24 1 (by decide) (fun h => nomatch h) (fun h => nomatch h), h]⟩

/-- C126 does not hold for times of Bezier keys under two-dimensional evaluation: the search for the parameter ends at an error of 1/1000 in time, whatever the
unit of time. From seconds to thousands of seconds, the value at a quarter of the curve changes from about 0.105 to 5/32. -/
theorem times_violated : ∃ (keys : List (Key ℚ)) (a x : ℚ), 0 < a ∧ evaluate true 12 .constant .constant keys x = some (7054985 / 67108864) ∧
    evaluate true 12 .constant .constant (convertInputs (some fun y => a * y) (some fun y => a * y) keys) (a * x) = some (5 / 32) :=
  ⟨bezierKeys, 1 / 1000, 1 / 4, by decide +kernel, by decide +kernel, by decide +kernel⟩

end Verif.Curve
