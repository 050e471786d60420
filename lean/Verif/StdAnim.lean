import Verif.Std
import Verif.CurveConv
import Verif.CurveMulti

/-!
# Model of the change of the up-axis and of the length unit for animation curves (FCDocument/FCDocumentTools.cpp 260-403)

A parameter with its animated object: the numbers, the curves of each number, by their numbers in the document, and the curves themselves. `none` for the
value at a time is undefined behaviour of the evaluation of a curve.
-/

namespace Verif.FStd

open Verif.Geo Verif.FXform

noncomputable section

/-- FCDAnimated.h: the values of an animated object, the lists of its curves (GetCurves), and the curves of the document. -/
structure Animated where
  vals : Nat → ℝ
  lists : Nat → List Nat
  heap : Nat → Curve.CurveData ℝ

/-- FCDAnimated.cpp 217-237: what `Evaluate` writes to a value: the value of its first curve; a value without curves stays. -/
def Animated.at (twoD : Bool) (n : Nat) (s : Animated) (k : Nat) (t : ℝ) : Option ℝ :=
  match s.lists k with
  | [] => some (s.vals k)
  | id :: _ => Curve.evaluate twoD n (s.heap id).pre (s.heap id).post (s.heap id).keys t

/-- FCDocumentTools.cpp 323-324: `ConvertValues` with a functor that multiplies. -/
def scaleCurve (k : ℝ) (c : Curve.CurveData ℝ) : Curve.CurveData ℝ :=
  { c with keys := Curve.convertValues (some fun y => y * k) (some fun y => y * k) c.keys }

/-- A curve is converted. -/
def Animated.scale (s : Animated) (id : Nat) (k : ℝ) : Animated := { s with heap := Function.update s.heap id (scaleCurve k (s.heap id)) }

/-- FCDAnimated.cpp 84-90: `AddCurve`. -/
def Animated.add (s : Animated) (k id : Nat) : Animated := { s with lists := Function.update s.lists k (s.lists k ++ [id]) }

/-- FCDAnimated.cpp 101-108: `RemoveCurve`. -/
def Animated.remove (s : Animated) (k : Nat) : Animated := { s with lists := Function.update s.lists k [] }

/-- FCDocumentTools.cpp 267: the local axes. -/
def unitAxis : Fin 3 → V3 ℝ
  | 0 => ⟨1, 0, 0⟩
  | 1 => ⟨0, 1, 0⟩
  | 2 => ⟨0, 0, 1⟩

/-- FCDocumentTools.cpp 306-320: the component an axis is turned to, and the sign. -/
def place (a : V3 ℝ) : Option (Fin 3 × ℝ) :=
  if equivalent |a.x| 1 then some (0, a.x)
  else if equivalent |a.y| 1 then some (1, a.y)
  else if equivalent |a.z| 1 then some (2, a.z)
  else none

/-- FCDocumentTools.cpp 135: `operator()` of the up-axis functor, with the flag for scales. -/
def Conv.turnBy (c : Conv) (isScale : Bool) (v : V3 ℝ) : V3 ℝ := if isScale then c.turnScale v else c.turn v

/-- FCDocumentTools.cpp 291-329: one curve of the component `i`; `convOf` gives the functors for the animation of a curve, `idx` the indices of the
three components. -/
def convertOne (convOf : Nat → Conv) (convertLength isScale : Bool) (idx : Fin 3 → Nat) (i : Fin 3) (s : Animated) (id : Nat) : Animated :=
  let a := (convOf id).turnBy isScale (unitAxis i)
  let length := if convertLength then (convOf id).factor else 1
  if equivalent a.lengthSquared 1 then
    match place a with
    | some (j, f) => (s.add (idx j) id).scale id (f * length)
    | none => s.scale id (1 * length)
  else s

/-- FCDocumentTools.cpp 260-336: `ConvertAnimationVector3`, for an animated object that has the three components at three different indices. -/
def convertVector3 (convOf : Nat → Conv) (convertLength isScale : Bool) (idx : Fin 3 → Nat) (s : Animated) : Animated :=
  let s0 := ((s.remove (idx 0)).remove (idx 1)).remove (idx 2)
  let s1 := (s.lists (idx 0)).foldl (convertOne convOf convertLength isScale idx 0) s0
  let s2 := (s.lists (idx 1)).foldl (convertOne convOf convertLength isScale idx 1) s1
  (s.lists (idx 2)).foldl (convertOne convOf convertLength isScale idx 2) s2

/-- FCDocumentTools.cpp 353-383: `ConvertAnimationFloat`. -/
def convertFloat (convOf : Nat → Conv) (k : Nat) (s : Animated) : Animated := (s.lists k).foldl (fun s id => s.scale id (convOf id).factor) s

/-- The three values at the given indices. -/
def Animated.get (s : Animated) (idx : Fin 3 → Nat) : V3 ℝ := ⟨s.vals (idx 0), s.vals (idx 1), s.vals (idx 2)⟩

/-- The three values are replaced. -/
def Animated.put (s : Animated) (idx : Fin 3 → Nat) (v : V3 ℝ) : Animated :=
  { s with vals := Function.update (Function.update (Function.update s.vals (idx 0) v.x) (idx 1) v.y) (idx 2) v.z }

/-- FCDocumentTools.cpp 386: `CONVERT_VECT3`. -/
def convertVect3 (c : Conv) (convOf : Nat → Conv) (idx : Fin 3 → Nat) (s : Animated) : Animated :=
  convertVector3 convOf false false idx (s.put idx (c.turn (s.get idx)))

/-- FCDocumentTools.cpp 387: `CONVERT_SCALE`. -/
def convertScale (c : Conv) (convOf : Nat → Conv) (idx : Fin 3 → Nat) (s : Animated) : Animated :=
  convertVector3 convOf false true idx (s.put idx (c.turnScale (s.get idx)))

/-- FCDocumentTools.cpp 388: `CONVERT_VECT3L`. -/
def convertVect3L (c : Conv) (convOf : Nat → Conv) (idx : Fin 3 → Nat) (s : Animated) : Animated :=
  convertVector3 convOf true false idx (s.put idx (c.lengthen (c.turn (s.get idx))))

/-- FCDocumentTools.cpp 385: `CONVERT_FL`. -/
def convertFl (c : Conv) (convOf : Nat → Conv) (k : Nat) (s : Animated) : Animated :=
  convertFloat convOf k { s with vals := Function.update s.vals k (s.vals k * c.factor) }

/-- The indices of the first three elements of a row of a matrix. -/
def row (r : Nat) : Fin 3 → Nat := fun i => 4 * r + i

/-- The indices of the first three elements of a column of a matrix. -/
def column (k : Nat) : Fin 3 → Nat := fun i => 4 * i + k

/-- FCDocumentTools.cpp 389-403: `CONVERT_MAT44`. The element in row r and column c has the index 4 r + c. -/
def convertMat44 (c : Conv) (convOf : Nat → Conv) (s : Animated) : Animated :=
  let s := convertVect3 c convOf (row 0) s
  let s := convertVect3 c convOf (row 1) s
  let s := convertVect3 c convOf (row 2) s
  let s := convertVect3 c convOf (column 0) s
  let s := convertVect3 c convOf (column 1) s
  let s := convertVect3 c convOf (column 2) s
  let s := convertVect3 c convOf (row 3) s
  let s := convertFl c convOf 12 s
  let s := convertFl c convOf 13 s
  convertFl c convOf 14 s

/-! ## Sources of meshes

Each number of a source has its own animated object; the values and the curves are indexed by the position of the number. -/

/-- The positions of the three numbers of an element. -/
def element (stride j : Nat) : Fin 3 → Nat := fun i => stride * j + i

/-- FCDParameterAnimatable.cpp 173-190: `IsAnimated` for one of three numbers. -/
def Animated.any (s : Animated) (idx : Fin 3 → Nat) : Bool := !(s.lists (idx 0)).isEmpty || !(s.lists (idx 1)).isEmpty || !(s.lists (idx 2)).isEmpty

/-- FCDocumentTools.cpp 606-611: one position is turned. -/
def turnPosition (c : Conv) (convOf : Nat → Conv) (stride : Nat) (s : Animated) (j : Nat) : Animated :=
  let s' := s.put (element stride j) (c.turn (s.get (element stride j)))
  if s'.any (element stride j) then convertVector3 convOf false false (element stride j) s' else s'

/-- FCDocumentTools.cpp 618-622: one number is scaled. -/
def scaleNumber (c : Conv) (convOf : Nat → Conv) (s : Animated) (k : Nat) : Animated :=
  let s' := { s with vals := Function.update s.vals k (s.vals k * c.factor) }
  if (s.lists k).isEmpty then s' else convertFloat convOf k s'

/-- FCDocumentTools.cpp 601-625: a source of positions with `count` elements. -/
def convertPositions (c : Conv) (convOf : Nat → Conv) (stride count : Nat) (s : Animated) : Animated :=
  let s := if c.hasAxis && decide (3 ≤ stride) then (List.range count).foldl (turnPosition c convOf stride) s else s
  if c.hasLength then (List.range (count * stride)).foldl (scaleNumber c convOf) s else s

/-- FCDocumentTools.cpp 636-641: one normal is turned. The animated objects asked for are those of the numbers j, j + 1 and j + 2, the numbers looked for
in them are those of the element; an animated object has one number. When only some are found, the lists of curves are read with the index -1: `none`. -/
def turnNormal (c : Conv) (convOf : Nat → Conv) (stride : Nat) (s : Animated) (j : Nat) : Option Animated :=
  let s' := s.put (element stride j) (c.turn (s.get (element stride j)))
  if s'.any (element 1 j) then
    let found := fun i : Fin 3 => decide (element 1 j i = element stride j i)
    if !found 0 && !found 1 && !found 2 then some s'
    else if found 0 && found 1 && found 2 then some (convertVector3 convOf false false (element 1 j) s')
    else none
  else some s'

/-- FCDocumentTools.cpp 628-645: a source of normals, tangents or binormals. -/
def convertNormals (c : Conv) (convOf : Nat → Conv) (stride count : Nat) (s : Animated) : Option Animated :=
  if c.hasAxis && decide (3 ≤ stride) then (List.range count).foldlM (turnNormal c convOf stride) s else some s

end

end Verif.FStd
