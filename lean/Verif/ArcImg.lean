import Verif.ArcParam
import Verif.ArcEntity
import Verif.ArcInst

/-!
# Model of the saving and loading of images and of materials (FArchiveXML/FAXMaterialExport.cpp 31-67, 1064-1082, FAXMaterialImport.cpp 33-85, 1508-1540)

The flag that says that an image is a video is left out; it is not saved. Effects of other documents are left out. `none` is undefined behaviour.
-/

namespace Verif.FArc

open Verif.FEff (Text text)
open Verif.FConv (Ov DateTime)

/-- FCDImage.h, FCDImage.cpp 26-33: an image. -/
structure Img where
  ent : Ent := {}
  file : Text := []
  width : Nat := 0
  height : Nat := 0
  depth : Nat := 0

/-- FAXMaterialExport.cpp 1071-1072: the text for the file; `stack` are the root paths of the file manager. -/
def imgUrl (ov : Ov) (stack : List FUri.Uri) (file : Text) : Option Text :=
  (FUri.parse ov file).bind fun u => (FPath.cleanUri ov stack false u).bind fun t => FXml.convertFilename (t ++ [0])

/-- FAXMaterialExport.cpp 1069-1074: the element of the file. -/
def imgFrom (ov : Ov) (stack : List FUri.Uri) (file : Text) : Option (List Node) :=
  if file = [] then some [] else (imgUrl ov stack file).map fun u => [textChild (text "init_from") u]

/-- FAXMaterialExport.cpp 1076-1078: an attribute that is written when it is not zero. -/
def countAttr (a : Text) (n : Nat) : List (Text × Text) := if 0 < n then [(a, natText n)] else []

/-- FAXMaterialExport.cpp 1076-1078: the attributes. -/
def imgAttrs (i : Img) : List (Text × Text) := countAttr (text "width") i.width ++ countAttr (text "height") i.height ++ countAttr (text "depth") i.depth

/-- FAXMaterialExport.cpp 1064-1082: `WriteImage`: the element and the image afterwards. -/
def writeImg (ov : Ov) (fmt : ℚ → Text) (now : DateTime) (stack : List FUri.Uri) (i : Img) : Option (Node × Img) :=
  (imgFrom ov stack i.file).bind fun ks => (writeEnt ov fmt now (text "image") i.ent ks).map fun r => (.elem r.1.name (r.1.attrs ++ imgAttrs i) r.1.direct r.1.kids, { i with ent := r.2 })

/-- FCDImage.cpp 40-49: `SetFilename`. -/
def setFile (ov : Ov) (stack : List FUri.Uri) (t : Text) : Option Text := if t = [] then some [] else stack.getLast?.bind fun cur => FUri.makeAbsolute ov cur t

/-- FAXMaterialImport.cpp 1519-1524: a number is set if there is an attribute. -/
def sizeIn (n : Node) (a : Text) (old : Nat) : Option Nat := if n.has a then (prop (some n) a).bind readNat else some old

/-- FAXMaterialImport.cpp 1528-1532: the file: it is made absolute, turned into a URI and made absolute again. -/
def imgFile (ov : Ov) (stack : List FUri.Uri) (t : Text) : Option Text :=
  (setFile ov stack t).bind fun f => (FUri.parse ov f).bind fun u => setFile ov stack (FUri.absoluteUri u true)

/-- `ReadNodeContentFull` of an element that may be missing. -/
def fullContent : Option Node → Option Text
  | some k => content k
  | none => some []

/-- FAXMaterialImport.cpp 1508-1540: `LoadImage` into an image. -/
def loadImg (ov : Ov) (now : DateTime) (stack : List FUri.Uri) (i : Img) (n : Node) : Option Img :=
  (loadEnt ov now i.ent n).bind fun s =>
    if n.name ≠ text "image" then some { i with ent := s }
    else (sizeIn n (text "width") i.width).bind fun w => (sizeIn n (text "height") i.height).bind fun h => (sizeIn n (text "depth") i.depth).bind fun d =>
      (fullContent (n.child (text "init_from"))).bind fun t => (imgFile ov stack t).map fun f => ⟨s, f, w, h, d⟩

/-! ## Materials -/

/-- FCDMaterial.h 60-64: a material: the id of its effect, the hints (platform and technique) and its parameters. -/
structure Mtl where
  ent : Ent := {}
  effect : Text := []
  hints : List (Text × Text) := []
  params : List Parm := []

/-- FAXMaterialExport.cpp 46-51: a hint. -/
def hintElem (h : Text × Text) : Node := .elem (text "technique_hint") [(text "platform", h.1), (text "ref", h.2)] [] []

/-- FAXMaterialExport.cpp 37-63: the element of the effect; `effects` are the ids of the effects of the document. -/
def effectElem (ov : Ov) (fmt : ℚ → Text) (stack : List FUri.Uri) (effects : List Text) (m : Mtl) : Option Node :=
  if m.effect ∈ effects then (refText ov stack m.effect).bind fun t => (m.params.mapM (writeParm fmt)).map fun ks =>
    .elem (text "instance_effect") [(text "url", t)] [] (m.hints.map hintElem ++ ks)
  else some (.elem (text "instance_effect") [(text "url", text "#")] [] [])

/-- FAXMaterialExport.cpp 31-67: `WriteMaterial`: the element and the material afterwards. -/
def writeMtl (ov : Ov) (fmt : ℚ → Text) (now : DateTime) (stack : List FUri.Uri) (effects : List Text) (m : Mtl) : Option (Node × Mtl) :=
  (effectElem ov fmt stack effects m).bind fun k => (writeEnt ov fmt now (text "material") m.ent [k]).map fun r => (r.1, { m with ent := r.2 })

/-- FAXMaterialImport.cpp 58-74: one child of `instance_effect`. -/
def loadMtlKid (ov : Ov) (m : Mtl) (k : Node) : Option Mtl :=
  if k.name = text "setparam" then (loadParm ov (text "instance_effect") k).map fun p => { m with params := m.params ++ [p] }
  else if k.name = text "technique_hint" then (prop (some k) (text "platform")).bind fun a => (prop (some k) (text "ref")).map fun b => { m with hints := m.hints ++ [(a, b)] }
  else some m

/-- The warnings of `LoadMaterial`. -/
inductive MtlWarning where
  | unknownElement | effectMissing
deriving DecidableEq

/-- FAXMaterialImport.cpp 33-85: `LoadMaterial` into a material; without an `instance_effect` its children are read all the same. -/
def loadMtl (ov : Ov) (now : DateTime) (effects : List Text) (m : Mtl) (n : Node) : Option (Mtl × List MtlWarning) :=
  (loadEnt ov now m.ent n).bind fun s =>
    if n.name ≠ text "material" then some ({ m with ent := s, params := [] }, [.unknownElement])
    else (n.child (text "instance_effect")).bind fun e => (prop (some e) (text "url")).bind fun t => (FUri.parse ov t).bind fun u => (FIds.cleanId u.fragment).bind fun id =>
      (e.kids.foldlM (loadMtlKid ov) { m with ent := s, params := [], effect := id }).map fun m => (m, if m.effect ∈ effects then [] else [.effectMissing])

end Verif.FArc
