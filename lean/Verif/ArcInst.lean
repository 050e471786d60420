import Verif.ArcExtra
import Verif.ArcPoly
import Verif.Path
import Verif.Lib

/-!
# Model of the saving and loading of instances (FArchiveXML/FAXInstanceExport.cpp 67-200, FAXInstanceImport.cpp 31-194)

References to entities of other documents (C95-C97) are left out. Effect parameters are kept as the elements that are written for them. `none` is undefined behaviour.
-/

namespace Verif.FArc

open Verif.FEff (Text text)
open Verif.FConv (Ov)
open Verif.Enum (GeometryInput)

/-- FCDEntityInstance.h 64-81: an instance: the id of its entity, its sub-id, its name and its extra tree. -/
structure IBase where
  id : Text := []
  sid : Text := []
  name : Text := []
  extra : FExtra.Extra := FExtra.newExtra

/-- FCDMaterialInstance.h 100-110: an instance of a material: the symbol, the bindings of effect parameters (semantic and target), and those of vertex inputs (semantic, input semantic and set). -/
structure MatInst where
  base : IBase := {}
  symbol : Text := []
  binds : List (Text × Text) := []
  inputs : List (Text × GeometryInput × Int) := []

/-- FCDGeometryInstance.h 39-45: an instance of a geometry: the elements of its effect parameters and the instances of its materials. -/
structure GeomInst where
  base : IBase := {}
  params : List Node := []
  mats : List MatInst := []

/-- FCDControllerInstance.h 48-56: an instance of a controller: with the addresses of the roots of its skeleton. -/
structure CtrlInst where
  geom : GeomInst := {}
  roots : List FUri.Uri := []

/-! ## Saving -/

/-- FCDEntityReference.cpp 42-54 (`GetUri` of an entity of the document) and FUFileManager.cpp 287-294: the address that is written. -/
def refText (ov : Ov) (stack : List FUri.Uri) (id : Text) : Option Text := (FUri.parse ov (35 :: id)).bind (FPath.cleanUri ov stack false)

/-- FAXInstanceExport.cpp 74-81: the sub-id and the name. -/
def baseAttrs (b : IBase) : List (Text × Text) := (if b.sid = [] then [] else [(text "sid", b.sid)]) ++ if b.name = [] then [] else [(text "name", b.name)]

/-- FAXInstanceExport.cpp 67-89: `WriteEntityInstance`. The extra tree is not written. -/
def writeInst (ov : Ov) (stack : List FUri.Uri) (elem : Text) (b : IBase) : Option Node :=
  (refText ov stack b.id).map fun t => .elem elem (baseAttrs b ++ [(text "url", t)]) [] []

/-- FAXInstanceExport.cpp 176-182: a binding. -/
def bindNode (x : Text × Text) : Node := .elem (text "bind") [(text "semantic", x.1), (text "target", x.2)] [] []

/-- FAXInstanceExport.cpp 185-192: a binding of a vertex input. -/
def vertexBind (x : Text × GeometryInput × Int) : Node :=
  .elem (text "bind_vertex_input") [(text "semantic", x.1), (text "input_semantic", text x.2.1.toString), (text "input_set", intText x.2.2)] [] []

/-- FAXInstanceExport.cpp 158-197: `WriteMaterialInstance`. -/
def writeMat (ov : Ov) (stack : List FUri.Uri) (m : MatInst) : Option Node :=
  (refText ov stack m.base.id).map fun t =>
    .elem (text "instance_material") (baseAttrs m.base ++ [(text "symbol", m.symbol), (text "target", t)]) [] (m.binds.map bindNode ++ m.inputs.map vertexBind ++ writeExtra m.base.extra)

/-- The instances of materials one after the other. -/
def writeMats (ov : Ov) (stack : List FUri.Uri) : List MatInst → Option (List Node)
  | [] => some []
  | m :: ms => (writeMat ov stack m).bind fun n => (writeMats ov stack ms).map (n :: ·)

/-- FAXInstanceExport.cpp 117-130: the `bind_material` element. -/
def bindMaterial (ps ns : List Node) : List Node := if ns = [] then [] else [.elem (text "bind_material") [] [] (ps ++ [.elem (text "technique_common") [] [] ns])]

/-- FAXInstanceExport.cpp 112-133: `WriteGeometryInstance`. -/
def writeGeom (ov : Ov) (stack : List FUri.Uri) (elem : Text) (g : GeomInst) : Option Node :=
  (refText ov stack g.base.id).bind fun t => (writeMats ov stack g.mats).map fun ns =>
    .elem elem (baseAttrs g.base ++ [(text "url", t)]) [] (bindMaterial g.params ns ++ writeExtra g.base.extra)

/-- FAXInstanceExport.cpp 144-152: the element of a root: only the fragment is written. -/
def skeletonNode (u : FUri.Uri) : Node := textChild (text "skeleton") (35 :: u.fragment)

/-- FAXInstanceExport.cpp 135-156: `WriteControllerInstance`. The extra tree is written a second time. -/
def writeCtrl (ov : Ov) (stack : List FUri.Uri) (c : CtrlInst) : Option Node :=
  (writeGeom ov stack (text "instance_controller") c.geom).map fun n =>
    .elem n.name n.attrs n.direct (c.roots.map skeletonNode ++ n.kids ++ writeExtra c.geom.base.extra)

/-! ## Loading -/

/-- What instances refer to in the document: the symbol and the face offset of the polygons of each mesh, and the ids of the materials. -/
structure InstDoc where
  meshes : List (Text × List (Text × Nat)) := []
  materials : List Text := []

/-- FAXInstanceImport.cpp 31-59 and FCDEntityReference.cpp 66-84: `LoadEntityInstance`. -/
def loadInst (ov : Ov) (n : Node) : Option IBase :=
  (prop (some n) (text "url")).bind fun t => (FUri.parse ov t).bind fun u => (FIds.cleanId u.fragment).bind fun id => (prop (some n) (text "sid")).bind fun sid =>
    (prop (some n) (text "name")).bind fun name => (FLib.cleanSubId name).bind fun name => (loadExtras FExtra.newExtra (n.children (text "extra"))).map fun e => ⟨id, sid, name, e⟩

/-- FAXInstanceImport.cpp 176-180: a binding. -/
def loadBind (k : Node) : Option (Text × Text) := (prop (some k) (text "semantic")).bind fun s => (prop (some k) (text "target")).map fun t => (s, t)

/-- FAXInstanceImport.cpp 187-191: a binding of a vertex input. -/
def loadVertexBind (ov : Ov) (k : Node) : Option (Text × GeometryInput × Int) :=
  (prop (some k) (text "input_set")).bind fun i => (prop (some k) (text "input_semantic")).bind fun is => (prop (some k) (text "semantic")).bind fun s => (readInt ov i).map fun i => (s, semanticOf is, i)

/-- FAXInstanceImport.cpp 158-196: `LoadMaterialInstance` into a new instance: the target is added to the element as its address. -/
def loadMat (ov : Ov) (n : Node) : Option MatInst :=
  (prop (some n) (text "target")).bind fun t => (loadInst ov (n.put (text "url") t)).bind fun b => (prop (some n) (text "symbol")).bind fun s =>
    ((n.children (text "bind")).mapM loadBind).bind fun bs => ((n.children (text "bind_vertex_input")).mapM (loadVertexBind ov)).map fun vs => ⟨b, s, bs, vs⟩

/-- FAXInstanceImport.cpp 112-131 with FCDGeometryInstance.cpp 74-95: the materials that are named as the symbols of the polygons. -/
def guessMats (d : InstDoc) : List (Text × Nat) → Option (List MatInst)
  | [] => some []
  | p :: ps => (FIds.cleanId p.1).bind fun id => (guessMats d ps).map fun ms =>
      if id ∈ d.materials then { base := { id := id }, symbol := if p.1 = [] then id ++ natText p.2 else p.1 } :: ms else ms

/-- FAXInstanceImport.cpp 88-108: the `bind_material` element. -/
def loadBound (ov : Ov) (b : IBase) (n : Node) : Option GeomInst :=
  ((((n.child (text "technique_common")).map fun k => k.children (text "instance_material")).getD []).mapM (loadMat ov)).map fun ms => ⟨b, n.children (text "param"), ms⟩

/-- FAXInstanceImport.cpp 84-133: what is done with the materials; `polys` are the polygons of the entity if it is a mesh. -/
def loadMaterials (ov : Ov) (d : InstDoc) (polys : List (Text × Nat)) (b : IBase) (n : Node) : Option GeomInst := match n.child (text "bind_material") with
  | some k => loadBound ov b k
  | none => (guessMats d polys).map fun ms => ⟨b, [], ms⟩

/-- FAXInstanceImport.cpp 79-137: `LoadGeometryInstance` into a new instance of a geometry. -/
def loadGeom (ov : Ov) (d : InstDoc) (n : Node) : Option GeomInst := (loadInst ov n).bind fun b => loadMaterials ov d ((d.meshes.lookup b.id).getD []) b n

/-- FAXInstanceImport.cpp 139-156: `LoadControllerInstance` into a new instance: the entity is not a geometry. -/
def loadCtrl (ov : Ov) (d : InstDoc) (n : Node) : Option CtrlInst :=
  (loadInst ov n).bind fun b => (loadMaterials ov d [] b n).bind fun g => ((n.children (text "skeleton")).mapM fun k => FUri.parse ov k.direct).map fun rs => ⟨g, rs⟩

end Verif.FArc
