import Verif.ArcCam
import Verif.ArcTrans
import Verif.Penumbra

/-!
# Model of the saving and loading of lights (FArchiveXML/FAXLightExport.cpp, FAXLightImport.cpp)

The values of a light that are not animated. The deprecated field `penumbraAngle`, which is neither written nor read, is left out; a penumbra in a file is read by `LoadPenumbra` (`Verif/Penumbra.lean`).
-/

namespace Verif.FArc

open Verif.FEff (Text text)
open Verif.FConv (Ov DateTime)

/-- FCDLight.h 65-71: the types of lights. -/
inductive LKind where
  | point | spot | ambient | directional
deriving DecidableEq

/-- FCDLight.h 77-91 and FCDLight.cpp 25-39: a light; the defaults are those of a new one. -/
structure Light where
  ent : Ent := {}
  kind : LKind := .point
  color : V3 := (1, 1, 1)
  intensity : ℚ := 1
  constAtt : ℚ := 1
  linAtt : ℚ := 0
  quadAtt : ℚ := 0
  fallExp : ℚ := 1
  fallAngle : ℚ := 5
  outer : ℚ := 5
  dropoff : ℚ := 0

/-- FAXLightExport.cpp 24-31: the name of the element. -/
def LKind.name : LKind → Text
  | .point => text "point"
  | .spot => text "spot"
  | .ambient => text "ambient"
  | .directional => text "directional"

/-- FAXLightExport.cpp 40-53, 67-73: the elements of the values. -/
def lightValues (fmt : ℚ → Text) (l : Light) : List Node :=
  [textChild (text "color") (vecText fmt l.color)] ++
  (if l.kind = .point ∨ l.kind = .spot then
    [valueChild (text "constant_attenuation") (numText fmt l.constAtt), valueChild (text "linear_attenuation") (numText fmt l.linAtt), valueChild (text "quadratic_attenuation") (numText fmt l.quadAtt)]
   else []) ++
  (if l.kind = .spot then [valueChild (text "falloff_angle") (numText fmt l.fallAngle), valueChild (text "falloff_exponent") (numText fmt l.fallExp)] else [])

/-- FAXLightExport.cpp 54-65, 74-99: the names and values of the parameters that are added to the technique of the library. -/
def lightParams (fmt : ℚ → Text) (l : Light) : List (Text × Text) :=
  (if l.kind = .directional then
    [(text "constant_attenuation", numText fmt l.constAtt), (text "linear_attenuation", numText fmt l.linAtt), (text "quadratic_attenuation", numText fmt l.quadAtt),
      (text "falloff_angle", numText fmt l.fallAngle), (text "falloff_exponent", numText fmt l.fallExp)]
   else []) ++
  [(text "intensity", numText fmt l.intensity)] ++
  (if l.kind = .directional ∨ l.kind = .spot then [(text "outer_cone", numText fmt l.outer)] else []) ++
  (if l.kind = .spot then [(text "dropoff", numText fmt l.dropoff)] else [])

/-- FAXLightExport.cpp 36, 54-99: the parameters are added, in order. -/
def pushParams (ps : List (Text × Text)) (ts : List FExtra.Tech) : List FExtra.Tech := ps.foldl (fun ts p => pushParam p.1 p.2 ts) ts

/-- FAXLightExport.cpp 103-104: the `n` parameters, which are the last, are released, and then the technique if it has no child nodes. -/
def popParams (n : Nat) (ts : List FExtra.Tech) : List FExtra.Tech :=
  match FExtra.findTechnique ts (text "FCOLLADA") with
  | none => ts
  | some i =>
    let ts := ts.modify i fun t => { t with node := .mk t.node.name t.node.content t.node.attrs (t.node.children.take (t.node.children.length - n)) }
    match ts[i]? with
    | some t => if t.node.children.length = 0 then ts.eraseIdx i else ts
    | none => ts

/-- FAXLightExport.cpp 16-106: `WriteLight`: the element and the light afterwards. -/
def writeLight (ov : Ov) (fmt : ℚ → Text) (now : DateTime) (l : Light) : Option (Node × Light) :=
  (onDefault (pushParams (lightParams fmt l)) l.ent.extra).bind fun e =>
    (writeEnt ov fmt now (text "light") { l.ent with extra := e } [.elem (text "technique_common") [] [] [.elem l.kind.name [] [] (lightValues fmt l)]]).bind fun r =>
      (onDefault (popParams (lightParams fmt l).length) r.2.extra).map fun e => (r.1, { l with ent := { r.2 with extra := e } })

/-- FAXLightImport.cpp 36-39: the type of light of an element. -/
def kindOf (name : Text) : Option LKind :=
  if name = text "point" then some .point
  else if name = text "spot" then some .spot
  else if name = text "ambient" then some .ambient
  else if name = text "directional" then some .directional
  else none

/-- FUStringConversion.hpp 226-239: `ToVector3`; undefined at the end of the text. -/
def readV3 (ov : Ov) (t : Text) : Option V3 :=
  (FConv.toVector ov 3 (t ++ [0])).bind fun r => match r.1 with
    | [a, b, c] => some (a, b, c)
    | _ => none

/-- FAXLightImport.cpp 59-97: one parameter; others are only reported. -/
def lightParam (ov : Ov) (l : Light) (k : Node) : Option Light :=
  if k.name = text "color" then (readV3 ov k.direct).map fun v => { l with color := v }
  else if k.name = text "constant_attenuation" then (readNum ov k.direct).map fun v => { l with constAtt := v }
  else if k.name = text "linear_attenuation" then (readNum ov k.direct).map fun v => { l with linAtt := v }
  else if k.name = text "quadratic_attenuation" then (readNum ov k.direct).map fun v => { l with quadAtt := v }
  else if k.name = text "falloff_exponent" then (readNum ov k.direct).map fun v => { l with fallExp := v }
  else if k.name = text "falloff_angle" then (readNum ov k.direct).map fun v => { l with fallAngle := v }
  else some l

/-- FAXLightImport.cpp 122-161, without 150-155: the names of the parameters of the extra tree that are taken. -/
def lightNames : List Text :=
  [text "falloff_exponent", text "falloff_angle", text "constant_attenuation", text "linear_attenuation", text "quadratic_attenuation", text "intensity", text "outer_cone", text "dropoff"]

/-- FAXLightImport.cpp 103-109 and FCDExtra.cpp 235-246: a parameter with one of these names. -/
def lightTaken (x : FExtra.Node) : Bool := decide (x.children.length = 0) && decide (x.name ∈ lightNames)

/-- FAXLightImport.cpp 114-170: one such parameter. -/
def lightExtra (ov : Ov) (l : Light) (x : FExtra.Node) : Option Light :=
  (readNum ov x.content).map fun v =>
    if x.name = text "falloff_exponent" then { l with fallExp := v }
    else if x.name = text "falloff_angle" then { l with fallAngle := v }
    else if x.name = text "constant_attenuation" then { l with constAtt := v }
    else if x.name = text "linear_attenuation" then { l with linAtt := v }
    else if x.name = text "quadratic_attenuation" then { l with quadAtt := v }
    else if x.name = text "intensity" then { l with intensity := v }
    else if x.name = text "outer_cone" then { l with outer := v }
    else { l with dropoff := v }

/-- FAXLightImport.cpp 150-155: a penumbra. -/
def isPenumbra (x : FExtra.Node) : Bool := decide (x.children.length = 0) && decide (x.name = text "penumbra_angle")

/-- The techniques with their child nodes changed by `f`. -/
def onKids (f : List FExtra.Node → List FExtra.Node) (t : FExtra.Tech) : FExtra.Tech := { t with node := .mk t.node.name t.node.content t.node.attrs (f t.node.children) }

/-- FAXLightImport.cpp 153, 180: the last penumbra is released. -/
def dropPenumbra : List FExtra.Tech → List FExtra.Tech
  | [] => []
  | t :: ts => if ts.any fun u => u.node.children.any isPenumbra then t :: dropPenumbra ts else onKids (fun cs => (cs.reverse.eraseP isPenumbra).reverse) t :: ts

/-- FAXLightImport.cpp 111, 175-181: the last penumbra is read; see C140 for one that is not animated. -/
def takePenumbra (ov : Ov) (l : Light) (ts : List FExtra.Tech) : Option (Light × List FExtra.Tech) :=
  match (ts.flatMap fun t => t.node.children.filter isPenumbra).getLast? with
  | none => some (l, ts)
  | some x => (readNum ov x.content).map fun p =>
    let a := Penumbra.setAngles ⟨l.fallAngle, l.outer, [], []⟩ p
    ({ l with fallAngle := a.fallOff, outer := a.outer }, dropPenumbra ts)

/-- FAXLightImport.cpp 99-181: the extra tree. -/
def loadLightExtra (ov : Ov) (l : Light) : Option Light :=
  (defaultTechs l.ent.extra).bind fun ts => ((ts.flatMap fun t => t.node.children.filter lightTaken).foldlM (lightExtra ov) l).bind fun l =>
    (takePenumbra ov l (ts.map (onKids fun cs => cs.filter fun x => !lightTaken x))).bind fun r =>
      (onDefault (fun _ => r.2) r.1.ent.extra).map fun e => { r.1 with ent := { r.1.ent with extra := e } }

/-- FAXLightImport.cpp 31-97: the type of light and its values, from the element `technique_common`. -/
def loadLightValues (ov : Ov) (l : Light) (common : Node) : Option Light :=
  match common.kids.find? fun k : Node => (kindOf k.name).isSome with
  | none => some l
  | some k => (paramsOf k).foldlM (lightParam ov) { l with kind := (kindOf k.name).getD l.kind }

/-- FAXLightImport.cpp 16-185: `LoadLight`: the light and the address of its target. An element without `technique_common` is undefined behaviour (line 33). -/
def loadLight (ov : Ov) (now : DateTime) (l : Light) (n : Node) : Option (Light × Text) :=
  (loadTargeted ov now l.ent n).bind fun r =>
    if n.name ≠ text "light" then some ({ l with ent := r.1 }, r.2)
    else (n.child (text "technique_common")).bind fun common => (loadLightValues ov { l with ent := r.1 } common).bind fun l => (loadLightExtra ov l).map fun l => (l, r.2)

end Verif.FArc
