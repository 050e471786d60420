import Verif.GeoRot
import Verif.Scene

/-!
# Model of the transforms of scene nodes (FCDocument/FCDTransform.cpp, FCDSceneNode.cpp)

Numbers are real numbers. The animated parameters are the values they hold at the moment; flags and events are left out.
-/

namespace Verif.FXform

open Verif.Geo

noncomputable section

/-- FCDTransform.h: the types of transforms. -/
inductive Kind where
  | translation | rotation | scale | skew | matrix | lookAt
  deriving DecidableEq

/-- FCDTransform.h: the values of the six classes. Angles are in degrees. -/
inductive Value where
  | translation (t : V3 ℝ)
  | rotation (axis : V3 ℝ) (angle : ℝ)
  | scale (s : V3 ℝ)
  | skew (rotateAxis aroundAxis : V3 ℝ) (angle : ℝ)
  | matrix (m : M44 ℝ)
  | lookAt (position target up : V3 ℝ)

/-- FCDTransform.h: `GetType`. -/
def Value.kind : Value → Kind
  | .translation _ => .translation
  | .rotation _ _ => .rotation
  | .scale _ => .scale
  | .skew _ _ _ => .skew
  | .matrix _ => .matrix
  | .lookAt _ _ _ => .lookAt

/-- FMath.h 99: `DegToRad`. -/
def degToRad (a : ℝ) : ℝ := a * Real.pi / 180

/-- A component of a vector (FMVector3.h, the conversion to `float*`). -/
def comp (a : V3 ℝ) : Nat → ℝ
  | 0 => a.x
  | 1 => a.y
  | _ => a.z

/-- FCDTransform.cpp 300-310: the array `v` of `FCDTSkew::ToMatrix`, row by row; `s` is the tangent. -/
def skewArray (s : ℝ) (rotateAxis aroundAxis : V3 ℝ) (k : Nat) : ℝ :=
  let col := k / 4
  let row := k % 4
  if col = 3 ∧ row = 3 then 1
  else if col = 3 ∨ row = 3 then 0
  else (if row = col then 1 else 0) + s * comp rotateAxis col * comp aroundAxis row

/-- FCDTransform.cpp 82-85, 128-131, 177-180, 294-313, 252-255 and FCDTransform.h 422: `ToMatrix`. At the angles of ±90 degrees a skew has no
tangent; the theorems about skews leave these angles out. -/
def Value.toMatrix : Value → M44 ℝ
  | .translation t => .translation t
  | .rotation axis angle => axisRotationMatrix axis (degToRad angle)
  | .scale s => .scale s
  | .skew r a angle => .set (skewArray (Real.tan (degToRad angle)) r a)
  | .matrix m => m
  | .lookAt p t u => lookAtMatrix p t u

/-- FCDTransform.cpp 39-42, 97-101, 143-150: `IsInverse`. -/
def Value.isInverse : Value → Value → Bool
  | .translation t, .translation t' => equivalent3 (t.smul (-1)) t'
  | .rotation a x, .rotation a' x' => (equivalent3 a a' && equivalent (-x) x') || (equivalent3 a.neg a' && equivalent x x')
  | _, _ => false

/-- FCDTransform.h 48-66: a transform with its sub id. -/
structure Transform where
  sid : List Int
  value : Value

/-- FCDTransform.cpp 327-339 and the constructors (29-32, 65, 111, 160, 200, 235, 275). -/
def create : Kind → Transform
  | .translation => ⟨[], .translation ⟨0, 0, 0⟩⟩
  | .rotation => ⟨[], .rotation ⟨1, 0, 0⟩ 0⟩
  | .scale => ⟨[], .scale ⟨1, 1, 1⟩⟩
  | .skew => ⟨[], .skew ⟨1, 0, 0⟩ ⟨0, 1, 0⟩ 0⟩
  | .matrix => ⟨[], .matrix .identity⟩
  | .lookAt => ⟨[], .lookAt ⟨0, 0, 0⟩ ⟨0, 0, -1⟩ ⟨0, 1, 0⟩⟩

/-- FCDTransform.cpp 71-80, 117-126, 166-175, 206-215, 241-250, 283-292: `Clone` into the transform `c`. -/
def cloneInto (t c : Transform) : Transform := if c.value.kind = t.value.kind then { c with value := t.value } else c

/-- FCDSceneNode.cpp 151-162: `AddTransform`, the new transform and its place. -/
def addTransform (ts : List Transform) (k : Kind) (index : Nat) : List Transform :=
  if index > ts.length then ts ++ [create k] else ts.take index ++ create k :: ts.drop index

/-- FCDSceneNode.cpp 248-256 and FCDSceneNode.h 271: `ToMatrix` and `CalculateLocalTransform`. -/
def toMatrix (ts : List Transform) : M44 ℝ := ts.foldl (fun m t => m.mul t.value.toMatrix) .identity

/-- FCDSceneNode.cpp 258-272: `CalculateWorldTransform`, with at most `n` nested calls; `tf` gives the transforms of the nodes. A dead node is undefined
behaviour. -/
def worldTransform (w : FScene.World) (tf : Nat → List Transform) : Nat → Nat → Option (M44 ℝ)
  | 0, _ => none
  | n + 1, x =>
    match w.nodes x with
    | none => none
    | some a =>
      match a.parents with
      | [] => some (toMatrix (tf x))
      | p :: _ => (worldTransform w tf n p).map fun m => m.mul (toMatrix (tf x))

/-- FCDSceneNode.cpp 306-310: the transforms of a clone; `old` are those the clone had before. -/
def cloneTransforms (ts old : List Transform) : List Transform :=
  ts.foldl (fun acc t => acc ++ [cloneInto t (create t.value.kind)]) old

end

end Verif.FXform
