import Verif.ArcEntity
import Verif.Ent

/-!
# Model of the saving and loading of cameras (FArchiveXML/FAXCameraExport.cpp, FAXCameraImport.cpp)

The values of a camera that are not animated. The views and the aspect ratio with their setters are those of `Verif/Ent.lean`. The projection is one of the two enumerators.
-/

namespace Verif.FArc

open Verif.FEff (Text text)
open Verif.FConv (Ov DateTime)

/-- FCDCamera.h 68-77 and FCDCamera.cpp 24-35: a camera; the defaults are those of a new one. -/
structure Cam where
  ent : Ent := {}
  ortho : Bool := false
  view : FEnt.View ℚ := FEnt.newView
  near : ℚ := 1
  far : ℚ := 1000

/-- FAXCameraExport.cpp 23-40: the names of the element and of the two views. -/
def camNames (ortho : Bool) : Text × Text × Text :=
  if ortho then (text "orthographic", text "xmag", text "ymag") else (text "perspective", text "xfov", text "yfov")

/-- FAXCameraExport.cpp 42-65: the elements of the values. -/
def camValues (fmt : ℚ → Text) (c : Cam) : List Node :=
  (if c.view.hasX then [valueChild (camNames c.ortho).2.1 (numText fmt c.view.x)] else []) ++
  (if !c.view.hasX || c.view.hasY then [valueChild (camNames c.ortho).2.2 (numText fmt c.view.y)] else []) ++
  (if !(c.view.hasY && c.view.hasX) then [valueChild (text "aspect_ratio") (numText fmt c.view.aspect)] else []) ++
  [valueChild (text "znear") (numText fmt c.near), valueChild (text "zfar") (numText fmt c.far)]

/-- FAXCameraExport.cpp 21-65: the element `optics`. -/
def opticsNode (fmt : ℚ → Text) (c : Cam) : Node :=
  .elem (text "optics") [] [] [.elem (text "technique_common") [] [] [.elem (camNames c.ortho).1 [] [] (camValues fmt c)]]

/-- FAXCameraExport.cpp 15-76: `WriteCamera`: the element and the camera afterwards. -/
def writeCamera (ov : Ov) (fmt : ℚ → Text) (now : DateTime) (c : Cam) : Option (Node × Cam) :=
  (writeEnt ov fmt now (text "camera") c.ent [opticsNode fmt c]).map fun r => (r.1, { c with ent := r.2 })

/-- FAXColladaParser.cpp 103-128: `FindParameters`: the parameters below an element. -/
def paramsOf (n : Node) : List Node := n.kids.filter fun k => decide (k.name ≠ text "technique") && decide (k.name ≠ text "extra")

/-- FMFloat.h 24: the tolerance of `IsEquivalent`. -/
def tolerance : ℚ := 1 / 10000

/-- FAXCameraImport.cpp 65-87: one parameter; others are only reported. `none` is also an aspect ratio that is not finite. -/
def camParam (ov : Ov) (c : Cam) (k : Node) : Option Cam :=
  if k.name = text "znear" then (readNum ov k.direct).map fun v => { c with near := v }
  else if k.name = text "zfar" then (readNum ov k.direct).map fun v => { c with far := v }
  else if k.name = text "xfov" then (readNum ov k.direct).bind fun v => (c.view.set tolerance (.fovX v)).map fun w => { c with view := w }
  else if k.name = text "yfov" then (readNum ov k.direct).bind fun v => (c.view.set tolerance (.fovY v)).map fun w => { c with view := w }
  else if k.name = text "xmag" then (readNum ov k.direct).bind fun v => (c.view.set tolerance (.fovX v)).map fun w => { c with view := w }
  else if k.name = text "ymag" then (readNum ov k.direct).bind fun v => (c.view.set tolerance (.fovY v)).map fun w => { c with view := w }
  else if k.name = text "aspect_ratio" then (readNum ov k.direct).bind fun v => (c.view.set tolerance (.aspect v)).map fun w => { c with view := w }
  else some c

/-- FAXCameraImport.cpp 35-92: the projection and the values, from the element `technique_common`. -/
def loadProjection (ov : Ov) (c : Cam) (common : Option Node) : Option Cam :=
  match common.bind (·.child (text "orthographic")), common.bind (·.child (text "perspective")) with
  | some _, some _ => some { c with ortho := false }
  | some n, none => (paramsOf n).foldlM (camParam ov) { c with ortho := true }
  | none, some n => (paramsOf n).foldlM (camParam ov) { c with ortho := false }
  | none, none => some c

/-- FAXCameraImport.cpp 15-93: `LoadCamera`: the camera and the address of its target. -/
def loadCamera (ov : Ov) (now : DateTime) (c : Cam) (n : Node) : Option (Cam × Text) :=
  (loadTargeted ov now c.ent n).bind fun r =>
    if n.name ≠ text "camera" then some ({ c with ent := r.1 }, r.2)
    else match n.child (text "optics") with
      | none => (loadProjection ov { c with ent := r.1 } none).map fun c => (c, r.2)
      | some o => (loadExtra r.1.extra o).bind fun e => (loadProjection ov { c with ent := { r.1 with extra := e } } (o.child (text "technique_common"))).map fun c => (c, r.2)

end Verif.FArc
