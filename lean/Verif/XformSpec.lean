import Verif.Xform
import Verif.SceneSpec
import Verif.GeoRotSpec

/-! # What the transforms of scene nodes mean -/

namespace Verif.FXform

open Verif.Geo

/-- Transforms applied one after the other, the last one of the list first. -/
noncomputable def applyAll (ts : List Transform) (q : V4 ℝ) : V4 ℝ := ts.foldr (fun t q => t.value.toMatrix.transform4 q) q

/-- The same on points. -/
noncomputable def movePoint (ts : List Transform) (p : V3 ℝ) : V3 ℝ := ts.foldr (fun t p => t.value.toMatrix.transformCoordinate p) p

/-- The chain of first parents, from a node without parents down to `x`. -/
inductive Chain (w : FScene.World) : List Nat → Nat → Prop where
  | root {x a} : w.nodes x = some a → a.parents = [] → Chain w [x] x
  | step {x a p ps l} : w.nodes x = some a → a.parents = p :: ps → Chain w l p → Chain w (l ++ [x]) x

/-- Exactly opposite values: a translation back, a rotation back around the same axis, a rotation around the opposite axis. -/
inductive Opposite : Value → Value → Prop where
  | translation (t : V3 ℝ) : Opposite (.translation t) (.translation t.neg)
  | back (a : V3 ℝ) (x : ℝ) : Opposite (.rotation a x) (.rotation a (-x))
  | around (a : V3 ℝ) (x : ℝ) : Opposite (.rotation a x) (.rotation a.neg x)

/-- The axis of a rotation has a direction, and it is used as a unit vector: it is one, or it is not taken for one. -/
def GoodAxis : Value → Prop
  | .rotation a _ => a.lengthSquared ≠ 0 ∧ (a.lengthSquared = 1 ∨ 1 / 10000 ≤ |a.lengthSquared - 1|)
  | _ => True

/-- Two transforms undo each other, in either order. -/
def Cancel (a b : M44 ℝ) : Prop := a.mul b = .identity ∧ b.mul a = .identity

end Verif.FXform
