import Verif.CurveConv
import Verif.CurveMulti

/-!
# Model of the loading of a penumbra into a light (FCDocument/FCDLightTools.cpp)

As for curves: numbers of an ordered field, `none` is undefined behaviour, a result that is not finite, or a search that is given up after `fuel` rounds. The
curves of the document are a list, and an animated value holds indices of curves, since two animated values can hold the same curve. Only the one value of
the angles has a list of curves; target objects, qualifiers, the flags of modified objects and the new animation entity that holds a new curve are left out.
-/

namespace Verif.Penumbra

open Verif.Curve

variable {K : Type} [Field K] [LinearOrder K]

/-- FCDLight.h: the two angles of a light and the curves of their animated values. -/
structure Light (K : Type) where
  fallOff : K
  outer : K
  fallOffCurves : List Nat
  outerCurves : List Nat
deriving DecidableEq

/-- FCDLightTools.cpp 30-41: the angles themselves. -/
def setAngles (l : Light K) (p : K) : Light K :=
  if p < 0 then { l with fallOff := l.fallOff - 2 * -p, outer := l.fallOff - 2 * -p + 2 * -p }
  else { l with outer := l.fallOff + 2 * p }

/-- FCDLightTools.cpp 43-49, FCDAnimated.cpp 271-286: the curves of the penumbra become the curves of the outer angle; `pen` is `none` if the animated value of the
penumbra is the one of the outer angle. The curves are shared, not copied. -/
def takePenumbra (l : Light K) (pen : Option (List Nat)) : Light K :=
  match pen with
  | none => l
  | some ids => if ids ≠ [] then { l with outerCurves := ids } else l

/-- FCDAnimationCurve.cpp 490-535: a conversion of the values of each of the curves in a list, in turn. -/
def convertAll (fs : List (K → K)) (heap : List (CurveData K)) : List Nat → Option (List (CurveData K))
  | [] => some heap
  | i :: is =>
    (heap[i]?).bind fun c =>
    convertAll fs (heap.set i { c with keys := fs.foldl (fun ks f => convertValues (some f) (some f) ks) c.keys }) is

/-- FCDLightTools.cpp 61-92: only the fall-off angle is animated; `p` is the penumbra. -/
def onlyFallOff (heap : List (CurveData K)) (l : Light K) (p : K) : Option (List (CurveData K) × Light K) :=
  let l := { l with outerCurves := l.fallOffCurves }
  if p < 0 then (convertAll [fun y => y + -2 * -p] heap l.fallOffCurves).map fun h => (h, l)
  else (convertAll [fun y => y + 2 * p] heap l.outerCurves).map fun h => (h, l)

/-- FCDLightTools.cpp 113-129: only the penumbra is animated, without negative values. -/
def onlyPenumbra (heap : List (CurveData K)) (l : Light K) : Option (List (CurveData K) × Light K) :=
  (convertAll [fun y => y * 2, fun y => y + l.fallOff] heap l.outerCurves).map fun h => (h, l)

/-- FCDLightTools.cpp 96-110: whether the penumbra is taken to have negative values. -/
def hasNegative (p : K) (keys : List (Key K)) : Bool := p < 0 || keys.any fun k => k.output < 0

/-- FCDLightTools.cpp 132-176: a curve for the fall-off angle, which is not animated. With `create` the curve of the outer angle is shared, and its keys are deleted
before its times are read: undefined. Otherwise there is a new curve, with two keys at the ends of the curve of the outer angle; a curve without keys has no
ends. -/
def fallOffCurve (heap : List (CurveData K)) (l : Light K) (p : K) (create : Bool) (outer : CurveData K) : Option (List (CurveData K) × Light K) :=
  if create then none
  else
    (outer.keys.head?).bind fun first => (outer.keys.getLast?).map fun last =>
    let angle := if p < 0 then l.outer else l.fallOff
    (heap ++ [{ pre := .constant
                post := .constant
                keys := [⟨first.input, angle, .linear, (0, 0), (0, 0), 0, 0, 0⟩, ⟨last.input, angle, .linear, (0, 0), (0, 0), 0, 0, 0⟩] }],
      { l with fallOffCurves := [heap.length] })

/-! ## Changes of sign -/

/-- FCDLightTools.cpp 235-253: the search for the time at which the penumbra, given by `eval`, is 0; `neg` after the change of sign. -/
def bisect (eval : K → Option K) (neg : Bool) : Nat → K → K → Option K
  | 0, _, _ => none
  | fuel + 1, lower, higher =>
    (eval ((higher + lower) / 2)).bind fun o =>
    if close o 0 then some ((higher + lower) / 2)
    else if (neg && decide (o < 0)) || (!neg && decide (0 < o)) then bisect eval neg fuel lower ((higher + lower) / 2)
    else bisect eval neg fuel ((higher + lower) / 2) higher

/-- FCDLightTools.cpp 255-284: the new key at a time at which the penumbra is 0, after the key `prev` and before `key`. The interpolation is that of `prev`, the tangents are
written if `key` is a Bezier key: out of bounds if `prev` is not, and if only `prev` is, they are not set and read later. The values of a new TCB key are not set and read later. -/
def zeroKey (eval : K → Option K) (prev key : MKey K) (t : K) : Option (Key K) :=
  if key.interp = .bezier ∧ prev.interp = .bezier then
    let inX := (prev.input + 2 * t) / 3
    let outX := (key.input + 2 * t) / 3
    (eval (t - (t - inX) / 1000)).bind fun before =>
    (eval (t + (outX - t) / 1000)).bind fun after =>
    (div before ((t - inX) / 1000)).bind fun s1 =>
    (div after ((outX - t) / 1000)).map fun s2 =>
    ⟨t, 0, .bezier, (inX, (t - inX) * s1), (outX, (outX - t) * s2), 0, 0, 0⟩
  else if key.interp = .bezier ∨ prev.interp = .bezier ∨ prev.interp = .tcb ∨ prev.interp = .unknown then none
  else some ⟨t, 0, prev.interp, (0, 0), (0, 0), 0, 0, 0⟩

/-- The value of the penumbra at a key of the merged curve. -/
def penumbraAt (k : MKey K) : Option K := (k.dims[1]?).map (·.output)

/-- FCDLightTools.cpp 201-286: the loop over the keys behind `prev`; `outer` are the keys of the outer angle, the result is with whether a key was added. -/
def flipLoop (eval : K → Option K) (fuel : Nat) : MKey K → Bool → Bool → List (MKey K) → List (Key K) → Option (List (Key K) × Bool)
  | _, _, _, [], outer => some (outer, false)
  | prev, neg, wasZero, [key], outer =>
    (penumbraAt key).bind fun y =>
    if close y 0 then some (outer, false)
    else if wasZero then some (outer, false)
    else if (neg && decide (0 < y)) || (!neg && decide (y < 0)) then
      (bisect eval (!neg) fuel prev.input key.input).bind fun t =>
      (zeroKey eval prev key t).map fun z => ((addKey outer z).1, true)
    else some (outer, false)
  | prev, neg, wasZero, key :: next :: rest, outer =>
    (penumbraAt key).bind fun y =>
    if close y 0 then (penumbraAt next).bind fun y' => flipLoop eval fuel next (decide (y' < 0)) (close y' 0) rest outer
    else if wasZero then flipLoop eval fuel key (decide (y < 0)) false (next :: rest) outer
    else if (neg && decide (0 < y)) || (!neg && decide (y < 0)) then
      (bisect eval (!neg) fuel prev.input key.input).bind fun t =>
      (zeroKey eval prev key t).bind fun z =>
      (flipLoop eval fuel key (!neg) false (next :: rest) (addKey outer z).1).map fun r => (r.1, true)
    else flipLoop eval fuel key neg false (next :: rest) outer

/-- FCDLightTools.cpp 194-295: the keys at changes of sign, and the merged curve with them; without a key the function returns, which is `some none`. -/
def addZeros [FloorRing K] (twoD : Bool) (n fuel : Nat) (fallOff outer : CurveData K) (values : List K) (m : Multi K) : Option (Option (CurveData K × Multi K)) :=
  match m.keys with
  | [] => some none
  | first :: rest =>
    (penumbraAt first).bind fun y =>
    (flipLoop (fun x => mEvaluate twoD n m x 1) fuel first (decide (y < 0)) (close y 0) rest outer.keys).bind fun r =>
    if r.2 then
      (mergeCurves twoD n [some fallOff, some { outer with keys := r.1 }] values).bind fun m' => m'.map fun m' => some ({ outer with keys := r.1 }, m')
    else some (some ({ outer with keys := r.1 }, m))

/-! ## The new keys -/

/-- FCDLightTools.cpp 307-345: the keys of the two angles for one merged key. The values of TCB keys are not set; they are 0 here. -/
def anglesKeys (k : MKey K) : Option (Key K × Key K) :=
  (k.dims[0]?).bind fun f => (k.dims[1]?).bind fun p =>
  if k.interp = .bezier then
    f.tangents.bind fun ft => p.tangents.bind fun pt =>
    (div (ft.1.2 - f.output) (ft.1.1 - k.input)).bind fun inSlope =>
    (div (ft.2.2 - f.output) (ft.2.1 - k.input)).map fun outSlope =>
    (⟨k.input, f.output, .bezier, ft.1, ft.2, 0, 0, 0⟩,
     ⟨k.input, f.output + 2 * p.output, .bezier,
      (pt.1.1, 2 * pt.1.2 + (f.output + inSlope * (pt.1.1 - k.input))),
      (pt.2.1, 2 * pt.2.2 + (f.output + outSlope * (pt.2.1 - k.input))), 0, 0, 0⟩)
  else some (⟨k.input, f.output, k.interp, (0, 0), (0, 0), 0, 0, 0⟩, ⟨k.input, f.output + 2 * p.output, k.interp, (0, 0), (0, 0), 0, 0, 0⟩)

/-- FCDLightTools.cpp 363-365: the outputs of a pair of keys, exchanged. -/
def swapOutputs (q : Key K × Key K) : Key K × Key K := ({ q.1 with output := q.2.output }, { q.2 with output := q.1.output })

/-- FCDLightTools.cpp 377-379, 390-392: the outgoing tangents, exchanged. -/
def swapOut (q : Key K × Key K) : Key K × Key K := ({ q.1 with outTangent := q.2.outTangent }, { q.2 with outTangent := q.1.outTangent })

/-- FCDLightTools.cpp 381-383, 399-401: the incoming tangents, exchanged. -/
def swapIn (q : Key K × Key K) : Key K × Key K := ({ q.1 with inTangent := q.2.inTangent }, { q.2 with inTangent := q.1.inTangent })

/-- FCDLightTools.cpp 385-394: the outgoing tangents of the last pair, exchanged if it is of Bezier keys that were not exchanged. -/
def fixPrevious (prevFlip : Bool) : List (Key K × Key K) → List (Key K × Key K)
  | [] => []
  | d :: ds => if !prevFlip && d.1.interp = .bezier then swapOut d :: ds else d :: ds

/-- FCDLightTools.cpp 348-413: the loop that exchanges the keys of the angles; the pairs before are in `done`, the last one first, and `prevFlip` is whether the last one was exchanged. -/
def flipKeys : List (Key K × Key K) → Bool → List (Key K × Key K) → List (Key K × Key K)
  | done, _, [] => done.reverse
  | done, prevFlip, q :: rest =>
    if q.2.output < q.1.output then
      if q.1.interp = .bezier then flipKeys (swapIn (swapOut (swapOutputs q)) :: fixPrevious prevFlip done) true rest
      else flipKeys (swapOutputs q :: done) true rest
    else if q.1.interp = .bezier && prevFlip then flipKeys (swapIn q :: done) false rest
    else flipKeys (q :: done) false rest

/-- FCDLightTools.cpp 183-413: both angles have curves, `i` that of the fall-off angle and `j` that of the outer angle. -/
def bothCurves [FloorRing K] (twoD : Bool) (n fuel : Nat) (heap : List (CurveData K)) (l : Light K) (i j : Nat) : Option (List (CurveData K) × Light K) :=
  (heap[i]?).bind fun f => (heap[j]?).bind fun o =>
  (mergeCurves twoD n [some f, some o] [l.fallOff, l.outer]).bind fun m => m.bind fun m =>
  (addZeros twoD n fuel f o [l.fallOff, l.outer] m).bind fun r =>
  match r with
  | none => some (heap, l)
  | some (o', m') =>
    (m'.keys.mapM anglesKeys).map fun pairs =>
    ((heap.set i { f with keys := (flipKeys [] false pairs).map Prod.fst }).set j { o' with keys := (flipKeys [] false pairs).map Prod.snd }, l)

/-- FCDLightTools.cpp 24-414: `LoadPenumbra`. If both angles are animated by one curve, it is erased and written for both: left out, as `none`. -/
def loadPenumbra [FloorRing K] (twoD : Bool) (n fuel : Nat) (heap : List (CurveData K)) (l : Light K) (p : K) (pen : Option (List Nat)) (create : Bool) :
    Option (List (CurveData K) × Light K) :=
  let l := takePenumbra (setAngles l p) pen
  match l.outerCurves, l.fallOffCurves with
  | [], [] => some (heap, l)
  | [], _ :: _ => onlyFallOff heap l p
  | j :: _, [] =>
    (heap[j]?).bind fun o =>
    if hasNegative p o.keys then
      (fallOffCurve heap l p create o).bind fun r => bothCurves twoD n fuel r.1 r.2 heap.length j
    else onlyPenumbra heap l
  | j :: _, i :: _ => if i = j then none else bothCurves twoD n fuel heap l i j

end Verif.Penumbra
