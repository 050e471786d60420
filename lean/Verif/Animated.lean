import Verif.CurveMulti
import Verif.ConvMore

/-!
# Model of animated values (FCDocument/FCDAnimated.cpp, .h, FCDocument/FCDParameterAnimatable.cpp)

An animated value points at floats, names them with qualifiers and has a list of curves for each of them. Pointers are numbers, with `none` for NULL; the floats
are a function from pointers to values. Curves are of any type `C`; `eval` samples them. NULL pointers in the lists of curves, flags and the
notification of the target are left out. Texts are lists of characters as in Str.
-/

namespace Verif.FAnim

open Verif.FStr (Ch)

/-- FCDAnimated.h 64-82. -/
structure Anim (C : Type) where
  values : List (Option Nat)
  qualifiers : List (List Ch)
  curves : List (List C)
  elem : Int
  deriving DecidableEq

variable {C T V : Type}

/-- FCDAnimated.cpp 29-70: the constructors, with arrays of the same length. -/
def Anim.make (values : List (Option Nat)) (qualifiers : List (List Ch)) : Anim C :=
  ⟨values, qualifiers.take values.length, List.replicate values.length [], -1⟩

/-- FCDAnimated.cpp 84-90: `AddCurve`. -/
def addCurve (a : Anim C) (index : Nat) (curve : C) : Bool × Anim C :=
  if index < a.values.length then (true, { a with curves := a.curves.modify index (· ++ [curve]) }) else (false, a)

/-- FCDAnimated.cpp 92-98: `AddCurve` of a list. -/
def addCurves (a : Anim C) (index : Nat) (list : List C) : Bool × Anim C :=
  if index < a.values.length ∧ list ≠ [] then (true, { a with curves := a.curves.modify index (· ++ list) }) else (false, a)

/-- FCDAnimated.cpp 101-108: `RemoveCurve`. -/
def removeCurve (a : Anim C) (index : Nat) : Bool × Anim C :=
  if index < a.values.length then (decide ((a.curves[index]?).getD [] ≠ []), { a with curves := a.curves.set index [] }) else (false, a)

/-- A curve that is released leaves the lists of curves, which are tracked (FCDAnimated.h 38, FUTracker.h). -/
def dropCurve [DecidableEq C] (a : Anim C) (curve : C) : Anim C := { a with curves := a.curves.map (·.filter (· ≠ curve)) }

/-- FCDAnimated.h 125: `GetCurve`. -/
def getCurve (a : Anim C) (index : Nat) (curveIndex : Nat) : Option C := if index < a.values.length then (a.curves[index]?).bind (·[curveIndex]?) else none

/-- FCDAnimated.cpp 167-172: `HasCurve`. -/
def hasCurve (a : Anim C) : Bool := a.curves.any (· ≠ [])

/-- FCDAnimated.cpp 137-145: `FindQualifier`; the inner `none` is -1. The qualifier is the text `q`, which ends with a zero character. -/
def findQualifier (a : Anim C) (q : List Ch) : Option (Option Nat) :=
  match a.qualifiers.findIdx? (· = q) with
  | some i => some (some i)
  | none => (FConv.parseQualifier .strict (q ++ [0])).map fun (m : Int) => if m ≥ 0 ∧ m < a.qualifiers.length then some m.toNat else none

/-- FCDAnimated.cpp 117-124: `FindValue` of a qualifier; `none` is NULL. -/
def findValue (a : Anim C) (q : List Ch) : Option Nat := (a.qualifiers.findIdx? (· = q)).bind fun i => (a.values[i]?).join

/-- FCDAnimated.cpp 149-156: `FindValue` of a pointer; `none` is -1. -/
def findPointer (a : Anim C) (p : Option Nat) : Option Nat := a.values.findIdx? (· = p)

/-- FCDAnimated.cpp 222-236: the loop of `Evaluate`. -/
def evalLoop (eval : C → T → Option V) (t : T) : List (Option Nat × List C) → (Nat → V) → Option (Nat → V)
  | [], mem => some mem
  | (some p, c :: _) :: rest, mem => (eval c t).bind fun y => evalLoop eval t rest (Function.update mem p y)
  | _ :: rest, mem => evalLoop eval t rest mem

/-- FCDAnimated.cpp 217-237: `Evaluate`. -/
def evaluate (eval : C → T → Option V) (a : Anim C) (t : T) (mem : Nat → V) : Option (Nat → V) := evalLoop eval t (a.values.zip a.curves) mem

/-- FCDAnimated.cpp 239-269: `Clone` to a new animated value; `copy` clones a curve. -/
def cloneNew (copy : C → C) (a : Anim C) : Anim C := { a with curves := a.curves.map (·.map copy) }

/-- FCDAnimated.cpp 271-287: `Clone` to a given animated value. -/
def cloneInto (a clone : Anim C) : Anim C :=
  let n := min a.values.length clone.values.length
  { clone with
    elem := a.elem
    qualifiers := a.qualifiers.take n ++ clone.qualifiers.drop n
    curves := a.curves.take n ++ clone.curves.drop n }

/-- FCDAnimated.cpp 308-316: `FCDAnimatedCustom`; `dummy` is the address of its float. -/
def custom (dummy : Nat) : Anim C := ⟨[some dummy], [[]], [[]], -1⟩

/-- FCDAnimated.cpp 340-352: `Resize` of a custom animated value. -/
def customResize (dummy : Nat) (a : Anim C) (qualifiers : List (List Ch)) (prependDot : Bool) : Anim C :=
  if qualifiers.length ≥ a.values.length then
    { a with
      values := a.values ++ List.replicate (qualifiers.length - a.values.length) (some dummy)
      qualifiers := qualifiers.map fun q => if prependDot then 46 :: q else q
      curves := a.curves ++ List.replicate (qualifiers.length - a.curves.length) [] }
  else a

/-- FCDAnimated.cpp 318-338: `Copy` of a custom animated value, which grows without qualifiers first. -/
def customCopy (dummy : Nat) (a copy : Anim C) : Anim C :=
  let n := copy.values.length
  let a := if n ≥ a.values.length then
    { a with
      values := a.values ++ List.replicate (n - a.values.length) (some dummy)
      qualifiers := a.qualifiers ++ List.replicate (n - a.qualifiers.length) []
      curves := a.curves ++ List.replicate (n - a.curves.length) [] }
    else a
  cloneInto copy a

/-- FCDAnimated.cpp 175-186: `CreateMultiCurve`; undefined for a NULL pointer. -/
def createMultiCurve {K : Type} [Field K] [LinearOrder K] [FloorRing K] (twoD : Bool) (n : Nat) (a : Anim (Curve.CurveData K)) (mem : Nat → K) :
    Option (Option (Curve.Multi K)) :=
  (a.values.mapM _root_.id).bind fun ps => Curve.mergeCurves twoD n (a.curves.map List.head?) (ps.map mem)

/-! ## The time of a document -/

/-- FCDocument.h 151: a document: the animated values that are registered (FCDocument.cpp 249-297) and the loaded documents it refers to. -/
structure Doc (C : Type) where
  anims : List (Anim C)
  children : List Nat

/-- FCDocument.cpp 359-363: all registered animated values, in the order of the set. -/
def evaluateAll (eval : C → T → Option V) (t : T) : List (Anim C) → (Nat → V) → Option (Nat → V)
  | [], mem => some mem
  | a :: as, mem => (evaluate eval a t mem).bind (evaluateAll eval t as)

/-- FCDocument.cpp 366-370: the loop over the documents that are referred to. -/
def childLoop (f : Nat → (Nat → V) → Option (Nat → V)) : List Nat → (Nat → V) → Option (Nat → V)
  | [], mem => some mem
  | c :: cs, mem => (f c mem).bind (childLoop f cs)

/-- FCDocument.cpp 357-371: `SetCurrentTime`; the first argument bounds the depth of the recursion. -/
def setTime (eval : C → T → Option V) (t : T) (docs : Nat → Doc C) : Nat → Nat → (Nat → V) → Option (Nat → V)
  | 0, _, _ => none
  | n + 1, d, mem => (evaluateAll eval t (docs d).anims mem).bind (childLoop (setTime eval t docs n) (docs d).children)

/-! ## The animated values of parameters -/

/-- The text of a literal. -/
def text (s : String) : List Ch := s.toList.map fun c => (c.toNat : Int)

/-- The types of animatable parameters. -/
inductive Kind where
  | float | vector2 | vector3 | color3 | vector4 | color4 | matrix | angleAxis | lookAt | skew
  deriving DecidableEq

/-- FCDParameterAnimatable.cpp 67-141: the floats an animated value points at, in order. -/
def fields : Kind → List String
  | .float => ["value"]
  | .vector2 => ["x", "y"]
  | .vector3 => ["x", "y", "z"]
  | .color3 => ["x", "y", "z"]
  | .vector4 => ["x", "y", "z", "w"]
  | .color4 => ["x", "y", "z", "w"]
  | .matrix => ["[0][0]", "[1][0]", "[2][0]", "[3][0]", "[0][1]", "[1][1]", "[2][1]", "[3][1]", "[0][2]", "[1][2]", "[2][2]", "[3][2]", "[0][3]", "[1][3]",
      "[2][3]", "[3][3]"]
  | .angleAxis => ["axis.x", "axis.y", "axis.z", "angle"]
  | .lookAt => ["position.x", "position.y", "position.z", "target.x", "target.y", "target.z", "up.x", "up.y", "up.z"]
  | .skew => ["rotateAxis.x", "rotateAxis.y", "rotateAxis.z", "aroundAxis.x", "aroundAxis.y", "aroundAxis.z", "angle"]

/-- FCDAnimated.cpp 360: `ROTATE_AXIS`. -/
def rotateAxis : List String := [".X", ".Y", ".Z", ".ANGLE"]

/-- FCDAnimated.cpp 362: `MATRIX`. -/
def matrixNames : List String :=
  ["(0)(0)", "(1)(0)", "(2)(0)", "(3)(0)", "(0)(1)", "(1)(1)", "(2)(1)", "(3)(1)", "(0)(2)", "(1)(2)", "(2)(2)", "(3)(2)", "(0)(3)", "(1)(3)", "(2)(3)",
    "(3)(3)"]

/-- FCDAnimated.cpp 363: `LOOKAT`. -/
def lookAtNames : List String := [".POSITIONX", ".POSITIONY", ".POSITIONZ", ".TARGETX", ".TARGETY", ".TARGETZ", ".UPX", ".UPY", ".UPZ"]

/-- FCDParameterAnimatable.cpp 67-141 and FCDAnimated.cpp 354-364: the array of qualifiers that is used. -/
def names : Kind → List String
  | .float => [""]
  | .vector2 | .vector3 | .vector4 => [".X", ".Y", ".Z", ".W"]
  | .color3 | .color4 => [".R", ".G", ".B", ".A"]
  | .matrix => matrixNames
  | .angleAxis => rotateAxis
  | .lookAt => lookAtNames
  | .skew => lookAtNames

/-- FCDParameterAnimatable.cpp 67-141: `CreateAnimated`; the floats of the parameter are the addresses from `base` on, in the order of `fields`. -/
def createAnimated (k : Kind) (base : Nat) : Anim C := .make ((List.range (fields k).length).map fun i => some (base + i)) ((names k).map text)

end Verif.FAnim
