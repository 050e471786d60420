import Verif.Curve

/-!
# Model of the conversion of curves (FCDocument/FCDAnimationCurve.cpp 490-583)

As for curves: numbers of an ordered field. A conversion function that is NULL is `none`. The flag of modified objects is left out.
-/

namespace Verif.Curve

variable {K : Type}

/-- FCDAnimationCurve.cpp 490-498, 513-521: `ConvertValues`, the first loop: the outputs. -/
def convertOutputs (f : Option (K → K)) (keys : List (Key K)) : List (Key K) :=
  match f with
  | some f => keys.map fun k => { k with output := f k.output }
  | none => keys

/-- FCDAnimationCurve.cpp 499-510, 522-533: `ConvertValues`, the second loop: the heights of the tangents of Bezier keys. -/
def convertHeights (g : Option (K → K)) (keys : List (Key K)) : List (Key K) :=
  match g with
  | some g => keys.map fun k =>
    if k.interp = .bezier then { k with inTangent := (k.inTangent.1, g k.inTangent.2), outTangent := (k.outTangent.1, g k.outTangent.2) } else k
  | none => keys

/-- FCDAnimationCurve.cpp 490-535: `ConvertValues`. -/
def convertValues (f g : Option (K → K)) (keys : List (Key K)) : List (Key K) := convertHeights g (convertOutputs f keys)

/-- FCDAnimationCurve.cpp 538-546, 561-569: `ConvertInputs`, the first loop: the times. -/
def convertTimes (f : Option (K → K)) (keys : List (Key K)) : List (Key K) :=
  match f with
  | some f => keys.map fun k => { k with input := f k.input }
  | none => keys

/-- FCDAnimationCurve.cpp 547-558, 570-581: `ConvertInputs`, the second loop: the times of the tangents of Bezier keys. -/
def convertWeights (g : Option (K → K)) (keys : List (Key K)) : List (Key K) :=
  match g with
  | some g => keys.map fun k =>
    if k.interp = .bezier then { k with inTangent := (g k.inTangent.1, k.inTangent.2), outTangent := (g k.outTangent.1, k.outTangent.2) } else k
  | none => keys

/-- FCDAnimationCurve.cpp 538-583: `ConvertInputs`. -/
def convertInputs (f g : Option (K → K)) (keys : List (Key K)) : List (Key K) := convertWeights g (convertTimes f keys)

end Verif.Curve
