import Verif.ArcMesh
import Verif.ArcSpline
import Verif.ArcMorph
import Verif.ArcEntity

/-!
# Model of the saving and loading of geometries and controllers with their meshes, splines, skins and morphers (FArchiveXML/FAXGeometryExport.cpp 131-143, FAXGeometryImport.cpp 193-244, FAXControllerExport.cpp 20-28,
FAXControllerImport.cpp 20-55)

Transient objects are left out. `none` is undefined behaviour.
-/

namespace Verif.FArc

open Verif.FEff (Text text)
open Verif.FConv (Ov DateTime)

/-- FCDGeometry.h 59-60: what a geometry has: `CreateMesh` and `CreateSpline` release the other one (FCDGeometry.cpp 38-53). -/
inductive GeoBody where
  | none
  | mesh (m : GMesh)
  | spline (l : List QSpline)

/-- FCDGeometry.h 59-60: a geometry; the id of its mesh is its id. -/
structure GeoEnt where
  ent : Ent := {}
  body : GeoBody := .none

/-- FAXGeometryExport.cpp 137-138: the elements of the mesh or of the splines. -/
def writeGeoBody (fmt : ℚ → Text) (id : Text) : GeoBody → Option (List Node)
  | .none => some []
  | .mesh m => (writeMesh fmt m).map fun n => [n]
  | .spline l => writeSplines fmt id 0 l

/-- FAXGeometryExport.cpp 131-143: `WriteGeometry`. -/
def writeGeo (ov : Ov) (fmt : ℚ → Text) (now : DateTime) (g : GeoEnt) : Option (Node × GeoEnt) :=
  (writeGeoBody fmt g.ent.id g.body).bind fun ks => (writeEnt ov fmt now (text "geometry") g.ent ks).map fun r => (r.1, { g with ent := r.2 })

/-- The reports of the loading of a geometry. -/
inductive GeoReport where
  | unknownElement | emptyGeometry | meshError
deriving DecidableEq

/-- What is loaded: the geometry, the status and the reports. -/
structure GeoLoaded where
  geo : GeoEnt
  status : Bool
  reports : List GeoReport

/-- FAXGeometryImport.cpp 206-243: the elements from the first on that is a mesh or a spline. `warn` and `err`: warnings and errors are fatal. -/
def loadGeoBody (ov : Ov) (warn err : Bool) (e : Ent) : List Node → Option GeoLoaded
  | [] => some ⟨{ ent := e }, true, [.emptyGeometry]⟩
  | k :: ks =>
    if k.name = text "spline" then (loadSplines ov warn (k :: ks)).map fun r => ⟨{ ent := e, body := .spline r.geo.splines }, r.status, []⟩
    else (loadMeshOf ov warn err e.id k).map fun r => ⟨{ ent := e, body := .mesh r.mesh }, r.status, if r.error then [.meshError] else []⟩

/-- FAXGeometryImport.cpp 211-236: whether an element is one of a geometry. -/
def geoElem (k : Node) : Bool := decide (k.name = text "mesh" ∨ k.name = text "convex_mesh" ∨ k.name = text "spline")

/-- FAXGeometryImport.cpp 193-244: `LoadGeometry` of a new geometry. -/
def loadGeo (ov : Ov) (warn err : Bool) (now : DateTime) (n : Node) : Option GeoLoaded :=
  (loadEnt ov now {} n).bind fun e =>
    if n.name ≠ text "geometry" then some ⟨{ ent := e }, true, [.unknownElement]⟩ else loadGeoBody ov warn err e (n.kids.dropWhile fun k => !geoElem k)

/-! ## Controllers -/

/-- FCDController.h 45-46: what a controller has: creating one releases the other (FCDController.cpp 42-57). -/
inductive CtrlBody where
  | none
  | skin (s : Skin)
  | morph (m : Morph)

/-- FCDController.h 45-46: a controller. -/
structure CtrlEnt where
  ent : Ent := {}
  body : CtrlBody := .none

/-- FAXControllerExport.cpp 25-26: the element of the skin or of the morpher. -/
def writeCtrlBody (ov : Ov) (fmt : ℚ → Text) (stack : List FUri.Uri) (id : Text) : CtrlBody → Option (List Node)
  | .none => some []
  | .skin s => (writeSkin ov fmt stack id s).map fun n => [n]
  | .morph m => some [writeMorph fmt id m]

/-- FAXControllerExport.cpp 20-28: `WriteController`. -/
def writeController (ov : Ov) (fmt : ℚ → Text) (now : DateTime) (stack : List FUri.Uri) (c : CtrlEnt) : Option (Node × CtrlEnt) :=
  (writeCtrlBody ov fmt stack c.ent.id c.body).bind fun ks => (writeEnt ov fmt now (text "controller") c.ent ks).map fun r => (r.1, { c with ent := r.2 })

/-- The reports of the loading of a controller. -/
inductive CtrlReport where
  | unknownElement | conflict | baseMissing
deriving DecidableEq

/-- What is loaded: the controller, the status, what is kept for the linking of joints and of the base of a morpher, and the reports. -/
structure CtrlLoaded where
  ctrl : CtrlEnt
  status : Bool := true
  sids : Bool := false
  source : Text := []
  reports : List CtrlReport := []

/-- FAXControllerImport.cpp 37-53: what is found in the element. -/
def loadCtrlBody (ov : Ov) (d : MorphDoc) (e : Ent) (reports : List CtrlReport) : Option Node → Option Node → Option CtrlLoaded
  | some s, _ => (loadSkin ov s).map fun r => { ctrl := { ent := e, body := .skin r.skin }, status := r.ok, sids := r.sids, reports := reports }
  | none, some m => (loadMorph ov d m).map fun r => { ctrl := { ent := e, body := .morph r.1 }, source := r.2, reports := reports }
  | none, none => some { ctrl := { ent := e }, reports := reports ++ [.baseMissing] }

/-- FAXControllerImport.cpp 20-55: `LoadController` of a new controller. -/
def loadController (ov : Ov) (d : MorphDoc) (now : DateTime) (n : Node) : Option CtrlLoaded :=
  (loadEnt ov now {} n).bind fun e =>
    if n.name ≠ text "controller" then some { ctrl := { ent := e }, reports := [.unknownElement] }
    else loadCtrlBody ov d e (if (n.child (text "skin")).isSome ∧ (n.child (text "morph")).isSome then [.conflict] else []) (n.child (text "skin")) (n.child (text "morph"))

end Verif.FArc
