import Verif.ArcPoly
import Verif.ArcCam
import Verif.ArcExtra
import Verif.Crc32
import Verif.Unique
import Verif.ArcInst

/-!
# Model of the saving and loading of animation curves (FArchiveXML/FAXAnimationExport.cpp, FAXAnimationImport.cpp)

The channels of one animation whose curves are written one by one: a channel of one curve, or one whose curves cannot be merged. Ids are found by their CRC-32, as in the code. Where the code makes a
list of numbers or vectors longer, the new elements are zero in the model; they are indeterminate in the code, and overwritten unless a tuple is incomplete.
-/

namespace Verif.FArc

open Verif.FEff (Text text)
open Verif.FConv (Ov)
open Verif.Enum (Interpolation Infinity)

/-- FCDAnimationKey.h: the part of a key that depends on its interpolation. -/
inductive AKind where
  | step
  | linear
  | unknown
  | bezier (i o : ℚ × ℚ)
  | tcb (t c b easeIn easeOut : ℚ)
deriving DecidableEq

/-- FCDAnimationKey.h: `interpolation`. -/
def AKind.interp : AKind → Interpolation
  | .step => .step
  | .linear => .linear
  | .unknown => .unknown
  | .bezier _ _ => .bezier
  | .tcb _ _ _ _ _ => .tcb

/-- FCDAnimationKey.h: a key. -/
structure AKey where
  input : ℚ
  output : ℚ
  kind : AKind
deriving DecidableEq

/-- FCDAnimationCurve.h: keys and infinities, which are constant in a new curve. -/
structure ACurve where
  keys : List AKey := []
  pre : Infinity := .constant
  post : Infinity := .constant
deriving DecidableEq

/-- FAXStructures.h 149-162 and FCDAnimationCurve.h: a curve with the place it drives, and the address and index of the value that drives it. -/
structure APlaced extends ACurve where
  elem : Int := -1
  qual : Text := []
  driver : Option (Text × Int) := none

/-! ## Saving -/

/-- FAXAnimationExport.cpp 333-337: `hasTangents`. -/
def hasBezier (ks : List AKey) : Bool := ks.any fun k => decide (k.kind.interp = .bezier)

/-- FAXAnimationExport.cpp 333-337: `hasTCB`. -/
def hasTcb (ks : List AKey) : Bool := ks.any fun k => decide (k.kind.interp = .tcb)

/-- FAXAnimationExport.cpp 357-376: the tangent written before a key. The lists never lag behind that of the interpolations, so the code that makes them grow does nothing. -/
def inTan (k : AKey) : List ℚ := match k.kind with | .bezier i _ => [i.1, i.2] | _ => [k.input - 1 / 10000, k.output]

/-- FAXAnimationExport.cpp 357-376: the tangent written after a key. -/
def outTan (k : AKey) : List ℚ := match k.kind with | .bezier _ o => [o.1, o.2] | _ => [k.input + 1 / 10000, k.output]

/-- FAXAnimationExport.cpp 377-397: the tension, continuity and bias. -/
def tcbOf (k : AKey) : List ℚ := match k.kind with | .tcb t c b _ _ => [t, c, b] | _ => [1 / 2, 1 / 2, 1 / 2]

/-- FAXAnimationExport.cpp 377-397: the eases. -/
def easeOf (k : AKey) : List ℚ := match k.kind with | .tcb _ _ _ i o => [i, o] | _ => [0, 0]

/-- FAXAnimationExport.cpp 423-427: the technique with the infinities. -/
def infinityNode (c : ACurve) : Node :=
  .elem (text "technique") [(text "profile", text "MAYA")] [] [textChild (text "pre_infinity") (text c.pre.toString), textChild (text "post_infinity") (text c.post.toString)]

/-- FAXAnimationExport.cpp 329-330: the name of the parameter. -/
def curveParam (qual : Text) : Text := if qual.head? = some 46 then qual.drop 1 else qual

/-- FAXAnimationExport.cpp 323-428: `WriteSourceFCDAnimationCurve`. The list of interpolations is made with as many elements as there are keys (line 407; FMArray.h 66-69, 258-275: they are not
initialized) and the interpolations are appended to these; `junk` is what the memory held, `unknown` being all values other than the four. -/
def writeSources (fmt : ℚ → Text) (junk : List Interpolation) (id : Text) (c : APlaced) : List Node :=
  [.elem (text "source") [(text "id", id ++ text "-input")] [] ((sourceFloats fmt (id ++ text "-input") (c.keys.map (·.input)) 1 (some [text "TIME"])).kids ++ [infinityNode c.toACurve]),
    sourceFloats fmt (id ++ text "-output") (c.keys.map (·.output)) 1 (some [curveParam c.qual]),
    sourceNames (id ++ text "-interpolations") ((junk ++ c.keys.map fun k => k.kind.interp).map fun i => text i.toString) (text "INTERPOLATION") false] ++
  (if hasBezier c.keys then
    [sourceVectors fmt (id ++ text "-intangents") (c.keys.map inTan) 2 (some [text "X", text "Y"]), sourceVectors fmt (id ++ text "-outtangents") (c.keys.map outTan) 2 (some [text "X", text "Y"])]
   else []) ++
  if hasTcb c.keys then [sourceVectors fmt (id ++ text "-tcbs") (c.keys.map tcbOf) 3 none, sourceVectors fmt (id ++ text "-eases") (c.keys.map easeOf) 2 none] else []

/-- FAXAnimationExport.cpp 456-474: the address of the driver. -/
def driverText (d : Text × Int) : Text :=
  d.1 ++ (if 0 ≤ d.2 then 40 :: (intText d.2 ++ [41]) else []) ++ if d.2 = 0 then 40 :: (intText d.2 ++ [41]) else []

/-- FAXAnimationExport.cpp 430-479: `WriteSamplerFCDAnimationCurve`. -/
def samplerNode (id : Text) (c : APlaced) : Node :=
  .elem (text "sampler") [(text "id", id ++ text "-sampler")] []
    (inputNode (id ++ text "-input") (text "INPUT") (-1) (-1) ++ inputNode (id ++ text "-output") (text "OUTPUT") (-1) (-1) ++
      inputNode (id ++ text "-interpolations") (text "INTERPOLATION") (-1) (-1) ++
      (if hasBezier c.keys then inputNode (id ++ text "-intangents") (text "IN_TANGENT") (-1) (-1) ++ inputNode (id ++ text "-outtangents") (text "OUT_TANGENT") (-1) (-1) else []) ++
      (if hasTcb c.keys then inputNode (id ++ text "-tcbs") (text "TCB") (-1) (-1) ++ inputNode (id ++ text "-eases") (text "EASE_IN_OUT") (-1) (-1) else []) ++
      match c.driver with | none => [] | some d => inputNode (driverText d) (text "DRIVER") (-1) (-1))

/-- FAXAnimationExport.cpp 490-496: the address of the values that a curve drives. -/
def targetText (pointer : Text) (c : APlaced) : Text := pointer ++ (if 0 ≤ c.elem then 40 :: (intText c.elem ++ [41]) else []) ++ c.qual

/-- FAXAnimationExport.cpp 481-498: `WriteChannelFCDAnimationCurve`. -/
def channelNode (id pointer : Text) (c : APlaced) : Node :=
  .elem (text "channel") [(text "source", 35 :: (id ++ text "-sampler")), (text "target", targetText pointer c)] [] []

/-- FAXAnimationExport.cpp 127-134: the id made for a curve; `base` is that of the channel. -/
def curveId (base : Text) (c : APlaced) : Option Text := FIds.cleanId (base ++ (if 0 ≤ c.elem then 95 :: (intText c.elem ++ [95]) else []) ++ c.qual)

/-- FAXAnimationExport.cpp 22-28, 112-152: `WriteAnimationChannel` of curves that are not merged: the sources of all curves, their samplers and their channels. -/
def writeChannel (fmt : ℚ → Text) (junk : APlaced → List Interpolation) (anim pointer : Text) (cs : List APlaced) : Option (List Node) :=
  (FIds.cleanId (anim ++ 95 :: pointer)).bind fun base => (cs.mapM (curveId base)).map fun ids =>
    (ids.zip cs).flatMap (fun x => writeSources fmt (junk x.2) x.1 x.2) ++ (ids.zip cs).map (fun x => samplerNode x.1 x.2) ++ (ids.zip cs).map fun x => channelNode x.1 pointer x.2

/-! ## Loading -/

/-- FUCrc32.cpp 69-79: the CRC-32 of a text. -/
def textCrc (t : Text) : Option (BitVec 32) := Crc32.crc32 ((t ++ [0]).map (BitVec.ofInt 8))

/-- FUXmlParser.cpp 173-186: `ReadNodePropertyCRC` of the id, which is not decoded. -/
def nodeCrc (n : Node) : Option (BitVec 32) := match n.raw (text "id") with | some t => textCrc t | none => some 0#32

/-- FAXAnimationImport.cpp 362-375: `FindChildByIdFCDAnimation`; `pool` are the children of the element and, after these, those of the animations around it. -/
def findByCrc (pool : List Node) (id : Text) : Option Node := pool.find? fun n => decide (nodeCrc n = textCrc (if id.head? = some 35 then id.drop 1 else id))

/-- FUDaeEnum.cpp 30-39: `FUDaeInterpolation::FromString`. -/
def interpOf (t : Text) : Interpolation := if t = [] then .bezier else (([.step, .linear, .bezier, .tcb] : List Interpolation).find? fun s => decide (text s.toString = t)).getD .unknown

/-- FUDaeEnum.cpp 198-206: `FUDaeInfinity::FromString`. -/
def infinityOf (t : Text) : Infinity := (([.constant, .linear, .cycle, .cycleRelative, .oscillate] : List Infinity).find? fun s => decide (text s.toString = t)).getD .constant

/-- FAXColladaParser.cpp 412-434: `ReadSourceInterpolation`; `none` is also an index outside the list of names. -/
def readInterps (src : Node) : Option (List Interpolation) :=
  (countOf (accessorOf src)).bind fun count => (strideOf (accessorOf src)).bind fun stride =>
    (FConv.toStringList (direct (src.child (text "Name_array")) ++ [0]) (List.replicate (count * stride % 2 ^ 32) [])).bind fun ws =>
      (List.range count).mapM fun i => (ws[i * stride % 2 ^ 32]?).map interpOf

/-- FAXColladaParser.cpp 211-233: `ReadSourceInterleaved` into `n` lists of numbers, `n` being the stride of the accessor. -/
def readOutputs (ov : Ov) (n : Nat) (src : Node) : Option (List (Option (List ℚ))) :=
  (countOf (accessorOf src)).bind fun count => FConv.toInterleaved (FConv.toFloat ov) 0 (direct (src.child (text "float_array")) ++ [0]) (List.replicate n (some (List.replicate count 0)))

/-- FAXColladaParser.cpp 293-313, 380-403: the loop over what is left of the text. With `wide`, for vectors of three numbers, the inner loop goes on after the last list if there is still text: an index
out of bounds. -/
def vecTrail (p : Text → Option (List ℚ × Text)) (wide : Bool) : Nat → List (Option (List (List ℚ))) → Text → Option (List (Option (List (List ℚ))))
  | 0, _, _ => none
  | fuel + 1, as, s => (FConv.deref s).bind fun c => if c = 0 then some as
    else (FConv.tuplePush p as s).bind fun r => (FConv.deref r.2.2).bind fun d => if wide ∧ r.2.1 = true ∧ d ≠ 0 then none else vecTrail p wide fuel r.1 r.2.2

/-- FAXColladaParser.cpp 274-275, 362-363: the list of lists is cut or filled with NULL. -/
def fitLists {α : Type} (k stride : Nat) (as : List (Option α)) : List (Option α) :=
  as.take (stride / k) ++ List.replicate ((stride + k - 1) / k - (as.take (stride / k)).length) none

/-- FAXColladaParser.cpp 235-319, 321-409: `ReadSourceInterleaved` into `n` lists of vectors of `k` numbers, `k` being 2 or 3: the stride and the lists. -/
def readVecs (ov : Ov) (k n : Nat) (src : Node) : Option (Nat × List (List (List ℚ))) :=
  (countOf (accessorOf src)).bind fun count => (strideOf (accessorOf src)).bind fun stride =>
    let fresh := List.replicate n (some (List.replicate count (List.replicate k (0 : ℚ))))
    let s := direct (src.child (text "float_array")) ++ [0]
    let p := if stride = n then fun s => (FConv.toFloat ov s).map fun r => (r.1 :: List.replicate (k - 1) 0, r.2) else FConv.readFloats ov k
    let as := if stride = n then fresh else fitLists k stride fresh
    (FConv.interOld p count 0 as s).bind fun r => (vecTrail p (decide (stride ≠ n ∧ k = 3 ∧ 2 * as.length < stride)) (r.2.2.length + 1) r.1 r.2.2).map fun as =>
      (stride, (List.range n).map fun i => ((as[i]?).getD none).getD (List.replicate count (List.replicate k 0)))

/-- FAXAnimationImport.cpp 58-61: the sources of a sampler and the address of the driver. -/
structure Inputs where
  input : Option Node := none
  output : Option Node := none
  inTan : Option Node := none
  outTan : Option Node := none
  tcb : Option Node := none
  ease : Option Node := none
  interp : Option Node := none
  driver : Text := []

/-- FAXAnimationImport.cpp 63-78: one input of the sampler. -/
def pickInput (pool : List Node) (s : Inputs) (k : Node) : Option Inputs :=
  (prop (some k) (text "source")).bind fun id => (prop (some k) (text "semantic")).map fun sem =>
    if sem = text "INPUT" then { s with input := findByCrc pool id }
    else if sem = text "OUTPUT" then { s with output := findByCrc pool id }
    else if sem = text "IN_TANGENT" then { s with inTan := findByCrc pool id }
    else if sem = text "OUT_TANGENT" then { s with outTan := findByCrc pool id }
    else if sem = text "TCB" then { s with tcb := findByCrc pool id }
    else if sem = text "EASE_IN_OUT" then { s with ease := findByCrc pool id }
    else if sem = text "INTERPOLATION" then { s with interp := findByCrc pool id }
    else if sem = text "DRIVER" then { s with driver := id }
    else s

/-- FAXAnimationImport.cpp 129-148 and FCDAnimationCurve.cpp 141-156: the kind of a new key; `inputs` are those of all keys. -/
def newKind (inputs : List ℚ) (j : Nat) (x y : ℚ) : Interpolation → AKind
  | .step => .step
  | .linear => .linear
  | .unknown => .unknown
  | .bezier => .bezier (((if j = 0 then x - 1 else inputs.getD (j - 1) 0) + 2 * x) / 3, y) (((if j + 1 = inputs.length then x + 1 else inputs.getD (j + 1) 0) + 2 * x) / 3, y)
  | .tcb => .tcb (1 / 2) (1 / 2) (1 / 2) 0 0

/-- FAXAnimationImport.cpp 106-150: the keys of one curve. Missing interpolations are Bezier, missing outputs zero. -/
def newKeys (inputs : List ℚ) (is : List Interpolation) (outs : List ℚ) : List AKey :=
  inputs.mapIdx fun j x => ⟨x, outs.getD j 0, newKind inputs j x (outs.getD j 0) (is.getD j .bezier)⟩

/-- FAXAnimationImport.cpp 162-198: the tangent before a key; a stride of one number for each curve is the height alone. -/
def setIn (stride n : Nat) (vs : List (List ℚ)) (j : Nat) (k : AKey) : AKey :=
  match vs[j]?, k.kind with
  | some v, .bezier i o => if stride = n then { k with kind := .bezier (i.1, k.output - v.getD 0 0) o } else if stride = n * 2 then { k with kind := .bezier (v.getD 0 0, v.getD 1 0) o } else k
  | _, _ => k

/-- FAXAnimationImport.cpp 210-246: the tangent after a key. -/
def setOut (stride n : Nat) (vs : List (List ℚ)) (j : Nat) (k : AKey) : AKey :=
  match vs[j]?, k.kind with
  | some v, .bezier i o => if stride = n then { k with kind := .bezier i (o.1, k.output + v.getD 0 0) } else if stride = n * 2 then { k with kind := .bezier i (v.getD 0 0, v.getD 1 0) } else k
  | _, _ => k

/-- FAXAnimationImport.cpp 259-274: the tension, continuity and bias of a key. -/
def setTcb (vs : List (List ℚ)) (j : Nat) (k : AKey) : AKey :=
  match vs[j]?, k.kind with
  | some v, .tcb _ _ _ i o => { k with kind := .tcb (v.getD 0 0) (v.getD 1 0) (v.getD 2 0) i o }
  | _, _ => k

/-- FAXAnimationImport.cpp 287-301: the eases of a key. -/
def setEase (vs : List (List ℚ)) (j : Nat) (k : AKey) : AKey :=
  match vs[j]?, k.kind with
  | some v, .tcb t c b _ _ => { k with kind := .tcb t c b (v.getD 0 0) (v.getD 1 0) }
  | _, _ => k

/-- FAXAnimationImport.cpp 153-302: one source of vectors, if there is one, for all curves. -/
def applyVecs (ov : Ov) (k n : Nat) (src : Option Node) (f : Nat → List (List ℚ) → Nat → AKey → AKey) (cs : List (List AKey)) : Option (List (List AKey)) :=
  match src with
  | none => some cs
  | some s => (readVecs ov k n s).map fun r => List.zipWith (fun ks vs => ks.mapIdx (f r.1 vs)) cs r.2

/-- FAXAnimationImport.cpp 309-342: one parameter of the technique: the infinities and the driver. -/
def infinityParam (s : Infinity × Infinity × Text) (k : Node) : Option (Infinity × Infinity × Text) :=
  if k.name = text "pre_infinity" then some (infinityOf k.direct, s.2)
  else if k.name = text "post_infinity" then some (s.1, infinityOf k.direct, s.2.2)
  else if k.name = text "input" then (prop (some k) (text "semantic")).bind fun sem =>
    if sem = text "DRIVER" then (prop (some k) (text "source")).map fun d => (s.1, s.2.1, d) else some s
  else some s

/-- FAXAnimationImport.cpp 304-343: the infinities, which are constant at first, and the driver. -/
def infinitiesOf (input : Node) (driver : Text) : Option (Infinity × Infinity × Text) :=
  match findTech input.kids (text "MAYA") with
  | none => some (.constant, .constant, driver)
  | some i => ((input.kids[i]?).map paramsOf).bind fun ps => ps.foldlM infinityParam (.constant, .constant, driver)

/-- FAXAnimationImport.cpp 104-110: the interpolations, if there is a source of them. -/
def interpsOf (src : Option Node) : Option (List Interpolation) := match src with | none => some [] | some k => readInterps k

/-- FAXStructures.h 128-146: what is known about a loaded channel. -/
structure AChan where
  pointer : Text := []
  qual : Text := []
  curves : List ACurve := []
  driver : Option (Text × Int) := none
deriving DecidableEq

/-- FAXAnimationImport.cpp 345-355: the address and the index of the driver. -/
def driverOf (ov : Ov) (d : Text) : Option (Option (Text × Int)) :=
  if d = [] then some none
  else (FConv.splitTarget (if d.head? = some 35 then d.drop 1 else d)).bind fun r => (FConv.parseQualifier ov (r.2 ++ [0])).map fun i => some (r.1, if i < 0 then 0 else i)

/-- FAXAnimationImport.cpp 86-356: the curves from their sources. -/
def loadCurves (ov : Ov) (c : AChan) (s : Inputs) (input output : Node) : Option AChan :=
  (strideOf (accessorOf output)).bind fun n => (readFloats ov input []).bind fun inputs =>
    if inputs.2 = [] then some { c with curves := List.replicate n {} }
    else (interpsOf s.interp).bind fun is => (readOutputs ov n output).bind fun outs =>
      (applyVecs ov 2 n s.inTan (fun st => setIn st n) (outs.map fun (o : Option (List ℚ)) => newKeys inputs.2 is (o.getD []))).bind fun cs =>
      (applyVecs ov 2 n s.outTan (fun st => setOut st n) cs).bind fun cs =>
      (applyVecs ov 3 n s.tcb (fun _ => setTcb) cs).bind fun cs =>
      (applyVecs ov 2 n s.ease (fun _ => setEase) cs).bind fun cs =>
      (infinitiesOf input s.driver).bind fun f =>
      (driverOf ov f.2.2).map fun d => { c with curves := cs.map fun ks => ⟨ks, f.1, f.2.1⟩, driver := d }

/-- FAXAnimationImport.cpp 27-359: `LoadAnimationChannel`: the channel and whether it was loaded. The extra tree of the animation is not modelled here. -/
def loadChannel (ov : Ov) (pool : List Node) (k : Node) : Option (Bool × AChan) :=
  (prop (some k) (text "source")).bind fun samplerId => (prop (some k) (text "target")).bind fun t => (FConv.splitTarget t).bind fun pq =>
    match findByCrc pool samplerId with
    | none => some (false, { pointer := pq.1, qual := pq.2 })
    | some sampler =>
      if sampler.name ≠ text "sampler" then some (false, { pointer := pq.1, qual := pq.2 })
      else ((sampler.children (text "input")).foldlM (pickInput pool) {}).bind fun s =>
        match s.input, s.output with
        | some i, some o => (loadCurves ov { pointer := pq.1, qual := pq.2 } s i o).map fun c => (true, c)
        | _, _ => some (false, { pointer := pq.1, qual := pq.2 })

/-- FAXAnimationImport.cpp 412-421: a channel is released if it or any channel before it failed. -/
def keepChannel (ov : Ov) (pool : List Node) (s : Bool × List AChan) (k : Node) : Option (Bool × List AChan) :=
  (loadChannel ov pool k).map fun r => (s.1 && r.1, if s.1 && r.1 then s.2 ++ [r.2] else s.2)

/-- FAXAnimationImport.cpp 397-421: the channels of an animation; `around` are the children of the animations around it. -/
def loadChannels (ov : Ov) (n : Node) (around : List Node) : Option (Bool × List AChan) := (n.children (text "channel")).foldlM (keepChannel ov (n.kids ++ around)) (true, [])

end Verif.FArc
