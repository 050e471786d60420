import Verif.ArcSkin
import Verif.ArcExtra
import Verif.Spline
import Verif.Enum

/-!
# Model of the saving and loading of splines (FColladaPlugins/FArchiveXML/FAXGeometryExport.cpp 311-383, FAXGeometryImport.cpp 558-704)

A control vertex is a list of three numbers. The elements are those among the children of `<geometry>`. `none` is undefined behaviour; `fatal` tells whether a warning is fatal.
-/

namespace Verif.FArc

open Verif.FEff (Text text)
open Verif.FConv (Ov)
open Verif.FSpline (Spline Geo)

/-- A spline with its control vertices, weights and knots as numbers. -/
abbrev QSpline := Spline (List ℚ) ℚ

/-- A geometric spline. -/
abbrev QGeo := Geo (List ℚ) ℚ

/-! ## Saving -/

/-- FUDaeEnum.cpp 65-74: the text for a type. -/
def splineTypeText : FSpline.Kind ℚ → Text
  | .linear => text Enum.SplineType.linear.toString
  | .bezier => text Enum.SplineType.bezier.toString
  | .nurbs _ _ _ => text Enum.SplineType.nurbs.toString

/-- The names of the coordinates, FUDaeEnum.cpp 23. -/
def splineAxes : List Text := [text "X", text "Y", text "Z", text "W"]

/-- FAXGeometryExport.cpp 358-361, 379-381: the element `<extra>`. -/
def splineExtra (ks : List Node) : Node := .elem (text "extra") [] [] [.elem (text "technique") [(text "profile", text "FCOLLADA")] [] ks]

/-- FAXGeometryExport.cpp 335-383: `WriteNURBSSpline` and `WriteSpline`; `id` is the id of the geometry, `i` the position. The degree that was never set is not written. -/
def writeSpline (fmt : ℚ → Text) (id : Text) (i : Nat) (s : QSpline) : Option Node :=
  let cvsId := id ++ (text "-cvs-" ++ natText i)
  let weightsId := id ++ (text "-weights-" ++ natText i)
  let knotsId := id ++ (text "-knots-" ++ natText i)
  let closed := [(text "closed", text (if s.closed then "1" else "0"))]
  match s.kind with
  | .nurbs none _ _ => none
  | .nurbs (some d) ws ks => some (.elem (text "spline") closed []
      [sourceVectors fmt cvsId s.cvs 3 (some splineAxes), sourceFloats fmt weightsId ws 1 (some [text "WEIGHT"]), sourceFloats fmt knotsId ks 1 (some [text "KNOT"]),
        .elem (text "control_vertices") [] []
          (inputNode cvsId (text "POSITION") (-1) (-1) ++ inputNode weightsId (text "WEIGHTS") (-1) (-1) ++ inputNode knotsId (text "KNOTS") (-1) (-1)),
        splineExtra [textChild (text "type") (splineTypeText s.kind), textChild (text "degree") (natText d)]])
  | _ => some (.elem (text "spline") closed []
      [sourceVectors fmt cvsId s.cvs 3 (some splineAxes), .elem (text "control_vertices") [] [] (inputNode cvsId (text "POSITION") (-1) (-1)),
        splineExtra [textChild (text "type") (splineTypeText s.kind)]])

/-- FAXGeometryExport.cpp 311-333: `WriteGeometrySpline`, from the position `i` on. -/
def writeSplines (fmt : ℚ → Text) (id : Text) : Nat → List QSpline → Option (List Node)
  | _, [] => some []
  | i, s :: ss => (writeSpline fmt id i s).bind fun n => (writeSplines fmt id (i + 1) ss).map (n :: ·)

/-! ## Loading -/

/-- FUDaeEnum.cpp 57-63: the type for a text. -/
def splineTypeOf (t : Text) : Nat :=
  if t = text "LINEAR" then 0 else if t = text "BEZIER" then 1 else if t = text "NURBS" then 2 else FSpline.unknown

/-- FAXGeometryImport.cpp 569-576, 659-662: the technique of the element. -/
def splineTech (n : Node) : Option Node := (n.child (text "extra")).bind fun e => (findTech e.kids (text "FCOLLADA")).bind fun i => e.kids[i]?

/-- FAXGeometryImport.cpp 618-633: the inputs of `LoadSpline`; `none` inside for a failure. -/
def loadCVs (ov : Ov) (n : Node) : List Node → List (List ℚ) → Option (Option (List (List ℚ)))
  | [], cvs => some (some cvs)
  | k :: ks, cvs =>
    (prop (some k) (text "source")).bind fun id =>
      if id = [] then some none
      else (findById n id).bind fun src => match src with
        | none => some none
        | some src => (prop (some k) (text "semantic")).bind fun sem =>
          if sem = text "POSITION" then (readPoints ov src cvs).bind fun cvs => loadCVs ov n ks cvs else loadCVs ov n ks cvs

/-- FAXGeometryImport.cpp 600-636: `LoadSpline`. -/
def loadSpline (ov : Ov) (n : Node) (s : QSpline) : Option (QSpline × Bool) :=
  (prop (some n) (text "closed")).bind fun c => (readBool c).bind fun c =>
    let s := s.setClosed c
    match n.child (text "control_vertices") with
    | none => some (s, false)
    | some v => (loadCVs ov n (v.children (text "input")) s.cvs).map fun r => match r with
      | none => (s, false)
      | some cvs => ({ s with cvs := cvs }, true)

/-- FAXGeometryImport.cpp 683-699: the inputs of `LoadNURBSSpline`: the weights and the knots; the flag tells whether all were found. -/
def loadNurbsInputs (ov : Ov) (n : Node) : List Node → List ℚ → List ℚ → Option (List ℚ × List ℚ × Bool)
  | [], ws, ks => some (ws, ks, true)
  | k :: r, ws, ks =>
    (prop (some k) (text "source")).bind fun id => match id with
      | [] => none
      | _ :: id =>
        if id = [] then some (ws, ks, false)
        else (findById n id).bind fun src => match src with
          | none => some (ws, ks, false)
          | some src => (prop (some k) (text "semantic")).bind fun sem =>
            if sem = text "KNOTS" then (readFloats ov src ks).bind fun x => loadNurbsInputs ov n r ws x.2
            else if sem = text "WEIGHTS" then (readFloats ov src ws).bind fun x => loadNurbsInputs ov n r x.2 ks
            else loadNurbsInputs ov n r ws ks

/-- FAXGeometryImport.cpp 665-667: the degree. -/
def loadDegree (t : Node) : Option Nat := match t.child (text "degree") with
  | none => some 3
  | some k => readNat k.direct

/-- FAXGeometryImport.cpp 654-704: `LoadNURBSSpline` after `LoadSpline`, for an element with the technique `t`. -/
def loadNurbs (ov : Ov) (n t : Node) (s : QSpline) : Option (QSpline × Bool) := match s.kind with
  | .nurbs _ ws ks => (loadDegree t).bind fun d => match n.child (text "control_vertices") with
    | none => some ({ s with kind := .nurbs (some d) ws ks }, true)
    | some v => (loadNurbsInputs ov n (v.children (text "input")) ws ks).bind fun r =>
      if r.2.2 then (FSpline.nurbsValid (some d) r.1 r.2.1 s.cvs).map fun ok => ({ s with kind := .nurbs (some d) r.1 r.2.1 }, ok)
      else some ({ s with kind := .nurbs (some d) r.1 r.2.1 }, true)
  | _ => none

/-- FAXGeometryImport.cpp 638-704: the loading of a spline of its class: the spline and whether it is kept. -/
def loadTyped (ov : Ov) (fatal : Bool) (n t : Node) (s : QSpline) : Option (QSpline × Bool) :=
  (loadSpline ov n s).bind fun r =>
    if !r.2 then some r
    else match s.kind with
      | .linear => some (r.1, FSpline.linearValid r.1)
      | .bezier => some (r.1, FSpline.bezierValid fatal r.1)
      | .nurbs _ _ _ => loadNurbs ov n t r.1

/-- What is loaded: the geometric spline and the status. -/
structure SplineLoad where
  geo : QGeo
  status : Bool

/-- FAXGeometryImport.cpp 565-593: one element. `SetType` releases all splines there are; a type that is not known gives no spline, which is dereferenced at 591. -/
def loadSplineNode (ov : Ov) (fatal : Bool) (r : SplineLoad) (n : Node) : Option SplineLoad :=
  if n.name ≠ text "spline" then some r
  else match splineTech n with
    | none => some r
    | some t => match t.child (text "type") with
      | none => some r
      | some k => (content k).bind fun ty =>
        let g := FSpline.setType r.geo (splineTypeOf ty)
        match FSpline.addSpline g FSpline.unknown with
        | (_, none) => none
        | (_, some s) => (loadTyped ov fatal n t s).map fun x =>
          if x.2 then { geo := { g with splines := g.splines ++ [x.1] }, status := r.status } else { geo := g, status := false }

/-- FAXGeometryImport.cpp 558-598: `LoadGeometrySpline`, for the elements from the first `<spline>` on. -/
def loadSplines (ov : Ov) (fatal : Bool) (ns : List Node) : Option SplineLoad := ns.foldlM (loadSplineNode ov fatal) { geo := {}, status := true }

end Verif.FArc
