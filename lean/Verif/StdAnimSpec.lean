import Verif.StdAnim
import Verif.StdSpec
import Verif.CurveConvSpec

/-! # What a change of the up-axis and of the unit means for animated values -/

namespace Verif.FStd

open Verif.Geo Verif.FXform

/-- At the time `t`, the three values are those of `v`. -/
def Animated.Shows (twoD : Bool) (n : Nat) (s : Animated) (idx : Fin 3 → Nat) (t : ℝ) (v : V3 ℝ) : Prop :=
  s.at twoD n (idx 0) t = some v.x ∧ s.at twoD n (idx 1) t = some v.y ∧ s.at twoD n (idx 2) t = some v.z

/-- At the time `t`, the sixteen values are those of `m`. -/
structure Animated.ShowsMatrix (twoD : Bool) (n : Nat) (s : Animated) (t : ℝ) (m : M44 ℝ) : Prop where
  row0 : s.Shows twoD n (row 0) t ⟨m.m00, m.m01, m.m02⟩
  row1 : s.Shows twoD n (row 1) t ⟨m.m10, m.m11, m.m12⟩
  row2 : s.Shows twoD n (row 2) t ⟨m.m20, m.m21, m.m22⟩
  row3 : s.Shows twoD n (row 3) t ⟨m.m30, m.m31, m.m32⟩
  m03 : s.at twoD n 3 t = some m.m03
  m13 : s.at twoD n 7 t = some m.m13
  m23 : s.at twoD n 11 t = some m.m23
  m33 : s.at twoD n 15 t = some m.m33

/-- The curves are those the conversion is right for: no curve animates two values or one value twice, the animations of all curves are in the coordinates of
the parameter, and two-dimensional evaluation meets no pair of TCB keys. -/
structure Animated.Tame (c : Conv) (convOf : Nat → Conv) (twoD : Bool) (s : Animated) : Prop where
  apart : ∀ j k, j ≠ k → ∀ id ∈ s.lists j, id ∉ s.lists k
  once : ∀ k, (s.lists k).Nodup
  conv : ∀ k, ∀ id ∈ s.lists k, convOf id = c
  keys : twoD = true → ∀ k, ∀ id ∈ s.lists k, Curve.NoTcbPair (s.heap id).keys

end Verif.FStd
