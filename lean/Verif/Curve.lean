import Mathlib.Algebra.Order.Floor.Defs
import Mathlib.Algebra.Field.Defs

/-!
# Model of animation curves (FCDocument/FCDAnimationCurve.cpp)

Numbers are elements of an ordered field with a floor function: floating-point rounding is left out. `none` is undefined behaviour, or a result that
is not a finite number. The iteration of `FindT` has a bound `n` on the number of rounds; the theorems hold for every bound from 12 on.
-/

namespace Verif.Curve

/-- FUDaeEnum.h 29-40: the types of interpolation; `DEFAULT` is `STEP`. -/
inductive Interp where
  | step | linear | bezier | tcb | unknown
deriving DecidableEq

/-- FUDaeEnum.h 231-249: what happens outside of the keys. -/
inductive Infin where
  | constant | linear | cycle | cycleRelative | oscillate | unknown
deriving DecidableEq

/-- FCDAnimationKey.h 26-71: a key; the tangents are there for Bezier keys, tension, continuity and bias for TCB keys. -/
structure Key (K : Type) where
  input : K
  output : K
  interp : Interp
  inTangent : K × K
  outTangent : K × K
  tension : K
  continuity : K
  bias : K
deriving DecidableEq

variable {K : Type} [Field K] [LinearOrder K]

/-! ## The list of keys -/

/-- FCDAnimationCurve.cpp 177-180: the search for the place of a new key. -/
def findPlace (input : K) : List (Key K) → Nat → Nat
  | [], index => index
  | k :: ks, index => if k.input > input then index else findPlace input ks (index + 1)

/-- FCDAnimationCurve.cpp 160-185: `AddKey`; the keys and the index of the new key. -/
def addKey (keys : List (Key K)) (key : Key K) : List (Key K) × Nat :=
  (keys.insertIdx (findPlace key.input keys 0) key, findPlace key.input keys 0)

/-- FCDAnimationCurve.cpp 187-195: `DeleteKey`, given the position of the key. -/
def deleteKey (keys : List (Key K)) (index : Nat) : List (Key K) := keys.eraseIdx index

/-! ## Segments -/

/-- A quotient of floating-point numbers; `none` for a division by zero. -/
def div (a b : K) : Option K := if b = 0 then none else some (a / b)

/-- FCDAnimationCurve.cpp 50: the Bezier polynomial with four control values. -/
def bezierX (p0 p1 p2 p3 t : K) : K :=
  p0 * (1 - t) * (1 - t) * (1 - t) + 3 * p1 * t * (1 - t) * (1 - t) + 3 * p2 * t * t * (1 - t) + p3 * t * t * t

/-- FCDAnimationCurve.cpp 46-54: the loop of `FindT`. -/
def findTLoop (p0 p1 p2 p3 input : K) : Nat → Bool → K → K → K → Option K
  | 0, _, _, _, _ => none
  | n + 1, once, lowT, highT, midT =>
    if highT - lowT > 1 / 1000 then
      let midT := if once then midT else (highT - lowT) / 2 + lowT
      if |bezierX p0 p1 p2 p3 midT - input| ≤ 1 / 1000 then some midT
      else if bezierX p0 p1 p2 p3 midT > input then findTLoop p0 p1 p2 p3 input n false lowT midT midT
      else findTLoop p0 p1 p2 p3 input n false midT highT midT
    else some midT

/-- FCDAnimationCurve.cpp 34-56: `FindT`. -/
def findT (n : Nat) (p0 p1 p2 p3 input guess : K) : Option K :=
  findTLoop p0 p1 p2 p3 input n true 0 1 (if guess ≤ 1 / 10 then 1 / 10 else if guess ≥ 9 / 10 then 9 / 10 else guess)

/-- FCDAnimationCurve.cpp 67-75: from the previous key to the current one, as the code has it. -/
def beforeDiff (prev : Option (Key K)) (cur : Key K) (next : Option (Key K)) : K × K :=
  match prev, next with
  | some p, _ => (p.input - cur.input, p.output - cur.output)
  | none, some q => (q.input - cur.input, 0)
  | none, none => (1 / 2, 0)

/-- FCDAnimationCurve.cpp 76-84: from the current key to the next one. -/
def afterDiff (prev : Option (Key K)) (cur : Key K) (next : Option (Key K)) : K × K :=
  match next, prev with
  | some q, _ => (q.input - cur.input, q.output - cur.output)
  | none, some p => (cur.input - p.input, 0)
  | none, none => (1 / 2, 0)

/-- FCDAnimationCurve.cpp 58-97: `ComputeTCBTangent`, the left tangent. -/
def leftTangent (prev : Option (Key K)) (cur : Key K) (next : Option (Key K)) : K × K :=
  let k1 := (1 - cur.tension) * (1 - cur.continuity) * (1 + cur.bias) / 2
  let k2 := (1 - cur.tension) * (1 + cur.continuity) * (1 - cur.bias) / 2
  (k1 * (beforeDiff prev cur next).1 + k2 * (afterDiff prev cur next).1, k1 * (beforeDiff prev cur next).2 + k2 * (afterDiff prev cur next).2)

/-- FCDAnimationCurve.cpp 58-97: `ComputeTCBTangent`, the right tangent. -/
def rightTangent (prev : Option (Key K)) (cur : Key K) (next : Option (Key K)) : K × K :=
  let k3 := (1 - cur.tension) * (1 + cur.continuity) * (1 + cur.bias) / 2
  let k4 := (1 - cur.tension) * (1 - cur.continuity) * (1 - cur.bias) / 2
  (k3 * (beforeDiff prev cur next).1 + k4 * (afterDiff prev cur next).1, k3 * (beforeDiff prev cur next).2 + k4 * (afterDiff prev cur next).2)

/-- FCDAnimationCurve.cpp 424-427, FMath.h 128: a quotient, clamped; an infinite quotient is clamped as well. -/
def clampDiv (a b : K) : Option K :=
  if b = 0 then (if 0 < a then some 100 else if a < 0 then some (1 / 100) else none)
  else some (if a / b > 100 then 100 else if a / b < 1 / 100 then 1 / 100 else a / b)

/-- FCDAnimationCurve.cpp 383: the linear interpolation. -/
def linearSeg (s e : Key K) (input : K) : Option K :=
  (div (input - s.input) (e.input - s.input)).map fun q => s.output + q * (e.output - s.output)

/-- FCDAnimationCurve.cpp 416-429: the interpolation from a Bezier key, given the incoming tangent of the next key. -/
def bezierSeg (twoD : Bool) (n : Nat) (s e : Key K) (inT : K × K) (input : K) : Option K :=
  (div (input - s.input) (e.input - s.input)).bind fun guess =>
  if twoD then
    (findT n s.input s.outTangent.1 inT.1 e.input input guess).map fun t =>
    s.output * (1 - t) * (1 - t) * (1 - t) + 3 * s.outTangent.2 * (1 - t) * (1 - t) * t + 3 * inT.2 * (1 - t) * t * t + e.output * t * t * t
  else
    (clampDiv (e.input - s.input) (s.outTangent.1 - s.input)).bind fun br =>
    (clampDiv (e.input - s.input) (e.input - inT.1)).map fun cr =>
    s.output * (1 - guess) * (1 - guess) * (1 - guess) + br * s.outTangent.2 * (1 - guess) * (1 - guess) * guess +
      cr * inT.2 * (1 - guess) * guess * guess + e.output * guess * guess * guess

/-- FCDAnimationCurve.cpp 446-478: the interpolation from a TCB key; `c` is the second control point (cx, cy), `first` the time of the first key. -/
def tcbSeg (twoD : Bool) (n : Nat) (first : K) (prev : Option (Key K)) (s e : Key K) (c : K × K) (input : K) : Option K :=
  (div (input - first) (e.input - s.input)).bind fun guess =>
  (if twoD then findT n s.input (s.input - (rightTangent prev s (some e)).1) c.1 e.input input guess else some guess).map fun t =>
  s.output * (1 - t) * (1 - t) * (1 - t) + 3 * (s.output - (rightTangent prev s (some e)).2) * t * (1 - t) * (1 - t) + 3 * c.2 * t * t * (1 - t) + e.output * t * t * t

/-- FCDAnimationCurve.cpp 380-485: the interpolation between two keys. -/
def segment (twoD : Bool) (n : Nat) (first : K) (prev : Option (Key K)) (s e : Key K) (next : Option (Key K)) (input : K) : Option K :=
  match s.interp, e.interp with
  | .linear, _ => linearSeg s e input
  | .bezier, .linear => linearSeg s e input
  | .bezier, .step => some s.output
  | .bezier, .unknown => some s.output
  | .bezier, .bezier => bezierSeg twoD n s e e.inTangent input
  | .bezier, .tcb => bezierSeg twoD n s e (e.input + (leftTangent (some s) e next).1, e.output + (leftTangent (some s) e next).2) input
  | .tcb, .linear => linearSeg s e input
  | .tcb, .step => some s.output
  | .tcb, .unknown => some s.output
  | .tcb, .bezier => tcbSeg twoD n first prev s e e.inTangent input
  | .tcb, .tcb => tcbSeg twoD n first prev s e (e.output + (leftTangent (some s) e next).1, e.output + (leftTangent (some s) e next).2) input
  | .step, _ => some s.output
  | .unknown, _ => some s.output

/-! ## The search for the interval -/

/-- FCDAnimationCurve.cpp 357-363: the binary search, over positions: the middle address, rounded down to a multiple of 8, is that of the position
`(start + terminate) / 2`. The first argument bounds the number of rounds. -/
def binLoop (keys : List (Key K)) (input : K) : Nat → Nat → Nat → Option (Nat × Nat)
  | 0, _, _ => none
  | n + 1, start, terminate =>
    if terminate - start > 3 then
      (keys[(start + terminate) / 2]?).bind fun k =>
      if k.input > input then binLoop keys input n start ((start + terminate) / 2) else binLoop keys input n ((start + terminate) / 2) terminate
    else some (start, terminate)

/-- FCDAnimationCurve.cpp 365-368: the linear search, over the given number of positions. -/
def linLoop (keys : List (Key K)) (input : K) : Nat → Nat → Option Nat
  | 0, it => some it
  | n + 1, it => (keys[it]?).bind fun k => if k.input ≥ input then some it else linLoop keys input n (it + 1)

/-- FCDAnimationCurve.cpp 356-368: the position of the end of the interval. -/
def search (keys : List (Key K)) (input : K) : Option Nat :=
  (binLoop keys input (keys.length + 1) 0 keys.length).bind fun r => linLoop keys input (r.2 - r.1) r.1

/-- FCDAnimationCurve.cpp 369-486: the output, for an input between the first and the last key. -/
def inside (twoD : Bool) (n : Nat) (keys : List (Key K)) (first : Key K) (input : K) : Option K :=
  (search keys input).bind fun it =>
  if it = 0 then some first.output
  else (keys[it - 1]?).bind fun s => (keys[it]?).bind fun e =>
    segment twoD n first.input (if it - 1 = 0 then none else keys[it - 2]?) s e keys[it + 1]? input

variable [FloorRing K]

/-- FCDAnimationCurve.cpp 326-338: an input before the first key; `second` is the second key. -/
def evalBefore (twoD : Bool) (n : Nat) (keys : List (Key K)) (pre : Infin) (first second last : Key K) (input : K) : Option K :=
  match pre with
  | .constant => some first.output
  | .linear => (div ((first.input - input) * (second.output - first.output)) (second.input - first.input)).map fun q => first.output + q
  | .cycle => (div (first.input - input) (last.input - first.input)).bind fun q => inside twoD n keys first (input + ⌈q⌉ * (last.input - first.input))
  | .cycleRelative => (div (first.input - input) (last.input - first.input)).bind fun q =>
    (inside twoD n keys first (input + ⌈q⌉ * (last.input - first.input))).map fun y => 0 - ⌈q⌉ * (last.output - first.output) + y
  | .oscillate => (div (first.input - input) (2 * (last.input - first.input))).bind fun q =>
    inside twoD n keys first (last.input - |input + ⌈q⌉ * 2 * (last.input - first.input) - last.input|)
  | .unknown => some first.output

/-- FCDAnimationCurve.cpp 341-353: an input at or behind the last key; `beforeLast` is the last key but one. -/
def evalAfter (twoD : Bool) (n : Nat) (keys : List (Key K)) (post : Infin) (first beforeLast last : Key K) (input : K) : Option K :=
  match post with
  | .constant => some last.output
  | .linear => (div ((input - last.input) * (beforeLast.output - last.output)) (beforeLast.input - last.input)).map fun q => last.output + q
  | .cycle => (div (input - last.input) (last.input - first.input)).bind fun q => inside twoD n keys first (input - ⌈q⌉ * (last.input - first.input))
  | .cycleRelative => (div (input - last.input) (last.input - first.input)).bind fun q =>
    (inside twoD n keys first (input - ⌈q⌉ * (last.input - first.input))).map fun y => 0 + ⌈q⌉ * (last.output - first.output) + y
  | .oscillate => (div (input - last.input) (2 * (last.input - first.input))).bind fun q =>
    inside twoD n keys first (first.input + |input - ⌈q⌉ * 2 * (last.input - first.input) - first.input|)
  | .unknown => some last.output

/-- FCDAnimationCurve.cpp 311-487: `Evaluate`. -/
def evaluate (twoD : Bool) (n : Nat) (pre post : Infin) (keys : List (Key K)) (input : K) : Option K :=
  match keys with
  | [] => some 0
  | [k] => some k.output
  | first :: second :: rest =>
    let last := (second :: rest).getLast (by simp)
    let beforeLast := (first :: second :: rest).dropLast.getLast (by simp)
    if input < first.input then evalBefore twoD n keys pre first second last input
    else if input ≥ last.input then evalAfter twoD n keys post first beforeLast last input
    else inside twoD n keys first input

end Verif.Curve
