import Verif.ArcDocSpec
import Verif.ArcLight
import Verif.ArcImg
import Verif.ArcBody

/-!
# Model of a whole document in a file, with typed libraries (FArchiveXML/FArchiveXML.cpp 546-1082)

The cameras, lights, images, materials, physics materials and physics scenes of a document are those of the models of their files; the entities of the other libraries are kept as the elements that are written for them,
as in `Verif/ArcDoc.lean`. The entities of the libraries are loaded independently of each other, but for materials, that look for an effect of the document. `none` is undefined behaviour.
-/

namespace Verif.FArc

open Verif.FEff (Text text)
open Verif.FConv (Ov DateTime)

/-- FCDLibrary.h 50-58: a library with its entities. -/
structure TLib (α : Type) where
  asset : Option QAsset := none
  ents : List α := []
  extra : FExtra.Extra := FExtra.newExtra

/-- FCDocument.h: a document. What is loaded for cameras and lights has the addresses of their targets as well. -/
structure TDoc (C L : Type) where
  asset : QAsset
  cameras : TLib C := {}
  lights : TLib L := {}
  images : TLib Img := {}
  materials : TLib Mtl := {}
  physicsMaterials : TLib PMat := {}
  physicsScenes : TLib PScene := {}
  others : Kind → Lib := fun _ => {}
  physics : List FUri.Uri := []
  scene : Option FUri.Uri := none
  extra : FExtra.Extra := FExtra.newExtra

/-! ## Saving -/

/-- FArchiveXML.cpp 1068-1070: the asset of a library, if it has one: the element and the asset afterwards. -/
def writeLibAsset (ov : Ov) (fmt : ℚ → Text) (now : DateTime) : Option QAsset → Option (Option Node × Option QAsset)
  | none => some (none, none)
  | some a => (writeAsset ov fmt now a).map fun r => (some r.1, some r.2)

/-- FArchiveXML.cpp 842-844, 1065-1082: `WriteLibrary`, unless the library has neither entities nor an extra tree: the parts that are written and the library afterwards. -/
def writeTLib {α : Type} (ov : Ov) (fmt : ℚ → Text) (now : DateTime) (wr : α → Option (Node × α)) (l : TLib α) : Option (Lib × TLib α) :=
  if l.ents.isEmpty = true ∧ FExtra.hasContent l.extra = false then some (⟨none, [], l.extra⟩, l)
  else (writeLibAsset ov fmt now l.asset).bind fun a => (l.ents.mapM wr).map fun es => (⟨a.1, es.map (·.1), l.extra⟩, ⟨a.2, es.map (·.2), l.extra⟩)

/-- The ids of effects, from their elements. -/
def effectIds (ns : List Node) : List Text := ns.filterMap fun n => prop (some n) (text "id")

/-- The libraries by kind. -/
def libsOf (cam light img mtl pmat pscene : Lib) (others : Kind → Lib) : Kind → Lib
  | .camera => cam
  | .light => light
  | .image => img
  | .material => mtl
  | .physicsMaterial => pmat
  | .physicsScene => pscene
  | k => others k

/-- FArchiveXML.cpp 805-915: `ExportDocument`: the file and the document afterwards. The entities of the other libraries do not change. -/
def saveDoc (ov : Ov) (fmt : ℚ → Text) (now : DateTime) (stack : List FUri.Uri) (d : TDoc Cam Light) : Option (Node × TDoc Cam Light) :=
  (writeAsset ov fmt now d.asset).bind fun a =>
  (writeTLib ov fmt now (writeCamera ov fmt now) d.cameras).bind fun c =>
  (writeTLib ov fmt now (writeLight ov fmt now) d.lights).bind fun l =>
  (writeTLib ov fmt now (writeImg ov fmt now stack) d.images).bind fun i =>
  (writeTLib ov fmt now (writeMtl ov fmt now stack (effectIds (d.others .effect).ents)) d.materials).bind fun m =>
  (writeTLib ov fmt now (writePMat ov fmt now) d.physicsMaterials).bind fun p =>
  (writeTLib ov fmt now (writePScene ov fmt now) d.physicsScenes).bind fun s =>
  (exportDoc ov stack ⟨a.1, libsOf c.1 l.1 i.1 m.1 p.1 s.1 d.others, d.physics, d.scene, d.extra⟩).map fun n =>
    (n, ⟨a.2, c.2, l.2, i.2, m.2, p.2, s.2, d.others, d.physics, d.scene, d.extra⟩)

/-! ## Loading -/

/-- FArchiveXML.cpp 938-942: the assets of a library: `GetAsset(true)` makes the asset for the first of them. -/
def readLibAsset (ov : Ov) (now : DateTime) : List Node → Option (Option QAsset)
  | [] => some none
  | ns => (ns.foldlM (loadAsset ov) (FEnt.newAsset now)).map some

/-- FArchiveXML.cpp 928-962: `LoadLibrary` for the libraries of a kind. -/
def readTLib {α : Type} (ov : Ov) (now : DateTime) (ld : Node → Option α) (r : DocLoaded) (k : Kind) : Option (TLib α) :=
  (readLibAsset ov now (r.assetsOf k)).bind fun a => ((r.of k).mapM ld).map fun es => ⟨a, es, r.libExtra k⟩

/-- The libraries whose entities are kept as elements. -/
def readOther (r : DocLoaded) (k : Kind) : Lib :=
  if k ∈ [Kind.camera, .light, .image, .material, .physicsMaterial, .physicsScene] then {} else ⟨(r.assetsOf k).head?, r.of k, r.libExtra k⟩

/-- FArchiveXML.cpp 551-737: `Import` up to the linking. -/
def loadDoc (ov : Ov) (now : DateTime) (stack : List FUri.Uri) (n : Node) : Option (TDoc (Cam × Text) (Light × Text)) :=
  (importDoc ov n).bind fun r => (r.assets.foldlM (loadAsset ov) (FEnt.newAsset now)).bind fun a =>
  (readTLib ov now (loadCamera ov now {}) r .camera).bind fun c =>
  (readTLib ov now (loadLight ov now {}) r .light).bind fun l =>
  (readTLib ov now (loadImg ov now stack {}) r .image).bind fun i =>
  (readTLib ov now (fun n => (loadMtl ov now (effectIds (r.of .effect)) {} n).map Prod.fst) r .material).bind fun m =>
  (readTLib ov now (loadPMat ov now {}) r .physicsMaterial).bind fun p =>
  (readTLib ov now (loadPScene ov now {}) r .physicsScene).map fun s =>
    ⟨a, c, l, i, m, p, s, readOther r, r.physics, r.scene, r.extra⟩

end Verif.FArc
