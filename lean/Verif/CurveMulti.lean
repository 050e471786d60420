import Verif.Curve

/-!
# Model of curves of several dimensions (FCDocument/FCDAnimationMultiCurve.cpp) and of the curve tools (FCDocument/FCDAnimationCurveTools.cpp)

As for curves: numbers of an ordered field, `none` is undefined behaviour or a result that is not finite. The loops over the dimensions write to one dimension
each, so the data of a dimension is computed as one column. The target element of a curve, and the ease-in and ease-out values of TCB keys, which are copied
or set to 0 and never read, are left out.
-/

namespace Verif.Curve

variable {K : Type} [Field K] [LinearOrder K]

/-- FCDAnimationKey.h 73-152: the part of a key of several dimensions that belongs to one dimension; tangents for Bezier keys, tension, continuity and bias for
TCB keys. -/
structure MDim (K : Type) where
  output : K
  tangents : Option ((K × K) × (K × K))
  tcb : Option (K × K × K)
deriving DecidableEq

/-- FCDAnimationKey.h 73-152: a key of several dimensions. -/
structure MKey (K : Type) where
  input : K
  interp : Interp
  dims : List (MDim K)
deriving DecidableEq

/-- FCDAnimationMultiCurve.h: a curve of several dimensions. -/
structure Multi (K : Type) where
  dimension : Nat
  pre : Infin
  post : Infin
  keys : List (MKey K)
deriving DecidableEq

/-- FCDAnimationCurve.h: a curve. -/
structure CurveData (K : Type) where
  pre : Infin
  post : Infin
  keys : List (Key K)
deriving DecidableEq

/-- FMFloat.h 29: `IsEquivalent(float, float)`. -/
def close (a b : K) : Bool := a - b < 1 / 10000 && b - a < 1 / 10000

/-! ## MergeCurves -/

/-- FCDAnimationCurveTools.cpp 59-84: the keys of one curve go into the merged times and interpolations; the list from position `m` on and the keys from
position `c` on. -/
def mergeLoop : List (K × Interp) → List (Key K) → List (K × Interp)
  | [], [] => []
  | m :: ms, [] => m :: ms
  | [], c :: cs => (c.input, c.interp) :: mergeLoop [] cs
  | m :: ms, c :: cs =>
    if close m.1 c.input then (m.1, if m.2 ≠ c.interp then .bezier else m.2) :: mergeLoop ms cs
    else if m.1 < c.input then m :: mergeLoop ms (c :: cs)
    else (c.input, c.interp) :: mergeLoop (m :: ms) cs
termination_by ms cs => ms.length + cs.length

/-- FCDAnimationCurveTools.cpp 49-85: the merged times and interpolations; a NULL curve is skipped. -/
def mergeTimes (toMerge : List (Option (CurveData K))) : List (K × Interp) :=
  toMerge.foldl (fun ms c => match c with
    | none => ms
    | some c => mergeLoop ms c.keys) []

/-- FCDAnimationCurveTools.cpp 109 and 128: a third of the time since the previous key. -/
def previousSpan (prev : Option K) (input : K) : K := (match prev with
  | some p => input - p
  | none => 1) / 3

/-- FCDAnimationCurveTools.cpp 110 and 129: a third of the time to the next key. -/
def nextSpan (next : Option K) (input : K) : K := (match next with
  | some q => q - input
  | none => 1) / 3

/-- FCDAnimationCurveTools.cpp 102-116: the column of a missing or empty curve. -/
def defaultColumn (value : K) : Option K → List (K × Interp) → List (MDim K)
  | _, [] => []
  | prev, (input, interp) :: ms =>
    { output := value
      tangents := if interp = .bezier then
          some ((input - previousSpan prev input, value), (input + nextSpan (ms.head?.map (·.1)) input, value))
        else none
      tcb := none } :: defaultColumn value (some input) ms

/-- FCDAnimationCurveTools.cpp 134-150: a key which the curve does not have; `eval` is `Evaluate` and `SMALL_DELTA` is 0.001. -/
def sampled (eval : K → Option K) (input : K) (interp : Interp) (ps ns : K) : Option (MDim K) :=
  (eval input).bind fun value =>
  if interp = .bezier then
    (eval (input - 1 / 1000)).map fun before =>
    let slope := (value - before) / (1 / 1000)
    { output := value, tangents := some ((input - ps, value - slope * ps), (input + ns, value + slope * ns)), tcb := none }
  else some { output := value, tangents := none, tcb := if interp = .tcb then some (1 / 2, 1 / 2, 1 / 2) else none }

/-- FCDAnimationCurveTools.cpp 168-170: a tangent, from one span to another. -/
def respan (input output : K) (t : K × K) (old new : K) : Option (K × K) :=
  (div (t.1 - input) old).bind fun u => (div (t.2 - output) old).map fun v => (input + u * new, output + v * new)

/-- FCDAnimationCurveTools.cpp 155-197: a key which the curve has; `ops` and `ons` are the spans of the curve. -/
def matched (c : Key K) (input : K) (interp : Interp) (ps ns ops ons : K) : Option (MDim K) :=
  match interp with
  | .bezier =>
    if c.interp = .bezier then
      (respan input c.output c.inTangent ops ps).bind fun i => (respan input c.output c.outTangent ons ns).map fun o =>
      { output := c.output, tangents := some (i, o), tcb := none }
    else some { output := c.output, tangents := some ((input - ps, c.output), (input + ns, c.output)), tcb := none }
  | .tcb =>
    some
      { output := c.output
        tangents := none
        tcb := some (if c.interp = .tcb then (c.tension, c.continuity, c.bias) else (1 / 2, 1 / 2, 1 / 2)) }
  | _ => some { output := c.output, tangents := none, tcb := none }

/-- FCDAnimationCurveTools.cpp 125-202: the column of a curve; `prev` and `prevC` are the times of the previous keys of the result and of the curve. -/
def column (eval : K → Option K) : Option K → List (K × Interp) → Option K → List (Key K) → Option (List (MDim K))
  | _, [], _, _ => some []
  | prev, (input, interp) :: ms, prevC, [] =>
    (sampled eval input interp (previousSpan prev input) (nextSpan (ms.head?.map (·.1)) input)).bind fun d =>
    (column eval (some input) ms prevC []).map (d :: ·)
  | prev, (input, interp) :: ms, prevC, c :: cs =>
    if close input c.input then
      (matched c input interp (previousSpan prev input) (nextSpan (ms.head?.map (·.1)) input)
        (previousSpan prevC c.input) (nextSpan (cs.head?.map (·.input)) c.input)).bind fun d =>
      (column eval (some input) ms (some c.input) cs).map (d :: ·)
    else
      (sampled eval input interp (previousSpan prev input) (nextSpan (ms.head?.map (·.1)) input)).bind fun d =>
      (column eval (some input) ms prevC (c :: cs)).map (d :: ·)

variable [FloorRing K]

/-- FCDAnimationCurveTools.cpp 97-203: the column of one dimension. -/
def dimColumn (twoD : Bool) (n : Nat) (times : List (K × Interp)) (curve : Option (CurveData K)) (dflt : K) : Option (List (MDim K)) :=
  match curve with
  | none => some (defaultColumn dflt none times)
  | some c => if c.keys = [] then some (defaultColumn dflt none times) else column (evaluate twoD n c.pre c.post c.keys) none times none c.keys

/-- FCDAnimationCurveTools.cpp 97-203: the columns, from dimension `i` on. -/
def columns (twoD : Bool) (n : Nat) (times : List (K × Interp)) (defaults : List K) : List (Option (CurveData K)) → Nat → Option (List (List (MDim K)))
  | [], _ => some []
  | c :: cs, i => (dimColumn twoD n times c (defaults[i]?.getD 0)).bind fun col => (columns twoD n times defaults cs (i + 1)).map (col :: ·)

/-- FCDAnimationCurveTools.cpp 86-94: the keys, with their columns. -/
def assemble (times : List (K × Interp)) (cols : List (List (MDim K))) : List (MKey K) :=
  times.mapIdx fun k t => { input := t.1, interp := t.2, dims := cols.filterMap fun col => col[k]? }

/-- FCDAnimationCurveTools.cpp 21-205: `MergeCurves`; the inner `none` is a NULL result. -/
def mergeCurves (twoD : Bool) (n : Nat) (toMerge : List (Option (CurveData K))) (defaults : List K) : Option (Option (Multi K)) :=
  match toMerge.findSome? id with
  | none => some none
  | some first =>
    (columns twoD n (mergeTimes toMerge) defaults toMerge 0).map fun cols =>
    some { dimension := toMerge.length, pre := first.pre, post := first.post, keys := assemble (mergeTimes toMerge) cols }

/-! ## Sampling -/

/-- FCDAnimationMultiCurve.cpp 95-101: the binary search, over positions, as for curves. -/
def mBinLoop (keys : List (MKey K)) (input : K) : Nat → Nat → Nat → Option (Nat × Nat)
  | 0, _, _ => none
  | n + 1, start, terminate =>
    if terminate - start > 3 then
      (keys[(start + terminate) / 2]?).bind fun k =>
      if k.input > input then mBinLoop keys input n start ((start + terminate) / 2) else mBinLoop keys input n ((start + terminate) / 2) terminate
    else some (start, terminate)

/-- FCDAnimationMultiCurve.cpp 103-106: the linear search, over the given number of positions. -/
def mLinLoop (keys : List (MKey K)) (input : K) : Nat → Nat → Option Nat
  | 0, it => some it
  | n + 1, it => (keys[it]?).bind fun k => if k.input > input then some it else mLinLoop keys input n (it + 1)

/-- FCDAnimationMultiCurve.cpp 93-106. -/
def mSearch (keys : List (MKey K)) (input : K) : Option Nat :=
  (mBinLoop keys input (keys.length + 1) 0 keys.length).bind fun r => mLinLoop keys input (r.2 - r.1) r.1

/-- FCDAnimationMultiCurve.cpp 142-156: one dimension of a Bezier segment. -/
def mBezier (twoD : Bool) (n : Nat) (s e : MKey K) (a b : MDim K) (input : K) : Option K :=
  a.tangents.bind fun st =>
  (if e.interp = .bezier then b.tangents.map (·.1) else some (e.input, 0)).bind fun inT =>
  (div (input - s.input) (e.input - s.input)).bind fun guess =>
  (if twoD then findT n s.input st.2.1 inT.1 e.input input guess else some guess).bind fun t =>
  (clampDiv (e.input - s.input) (st.2.1 - s.input)).bind fun br =>
  (clampDiv (e.input - s.input) (e.input - inT.1)).map fun cr =>
  a.output * (1 - t) * (1 - t) * (1 - t) + br * st.2.2 * (1 - t) * (1 - t) * t + cr * inT.2 * (1 - t) * t * t + b.output * t * t * t

/-- FCDAnimationMultiCurve.cpp 125-166: one dimension of a segment. -/
def mSegment (twoD : Bool) (n : Nat) (s e : MKey K) (a b : MDim K) (input : K) : Option K :=
  match s.interp with
  | .linear => (div (input - s.input) (e.input - s.input)).map fun q => a.output + q * (b.output - a.output)
  | .bezier => mBezier twoD n s e a b input
  | _ => some a.output

/-- FCDAnimationMultiCurve.cpp 80-169: one dimension of the output of `Evaluate`; `none` as well for a dimension the curve does not have. -/
def mEvaluate (twoD : Bool) (n : Nat) (curve : Multi K) (input : K) (i : Nat) : Option K :=
  if curve.dimension ≤ i then none
  else match curve.keys with
    | [] => some 0
    | [k] => (k.dims[i]?).map (·.output)
    | k :: _ :: _ =>
      (mSearch curve.keys input).bind fun it =>
      if it = curve.keys.length then (curve.keys.getLast?).bind fun l => (l.dims[i]?).map (·.output)
      else if it = 0 then (k.dims[i]?).map (·.output)
      else (curve.keys[it - 1]?).bind fun s => (curve.keys[it]?).bind fun e =>
        (s.dims[i]?).bind fun a => (e.dims[i]?).bind fun b => mSegment twoD n s e a b input

/-! ## Collapse -/

/-- FCDAnimationCurveTools.cpp 254-260: `Average`; undefined for no values. -/
def average (values : List K) : Option K := div values.sum values.length

/-- FCDAnimationCurveTools.cpp 226-243: one key; the cast of the array of keys to an array of Bezier keys is undefined. The values that are not set, of TCB
keys, are 0. -/
def collapseKey (f : List K → Option K) (k : MKey K) : Option (Key K) :=
  if k.interp = .bezier then none
  else (f (k.dims.map (·.output))).map fun y =>
    { input := k.input, output := y, interp := k.interp, inTangent := 0, outTangent := 0, tension := 0, continuity := 0, bias := 0 }

/-- FCDAnimationCurveTools.cpp 208-247: `Collapse`; the inner `none` is a NULL result. -/
def collapse (f : List K → Option K) (curve : Multi K) : Option (Option (List (Key K))) :=
  if curve.keys = [] ∨ curve.dimension = 0 then some none
  else (curve.keys.mapM (collapseKey f)).map some

end Verif.Curve
