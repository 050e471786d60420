import Verif.ArcLight
import Verif.ArcTrans
import Verif.FxParam

/-!
# Model of the saving and loading of surfaces (FArchiveXML/FAXMaterialExport.cpp, FAXMaterialImport.cpp)

The images of a surface are told apart by their ids. A surface that is loaded has the names of its images, from which the images are found when the document is linked. The size of a surface is `none`
when it is indeterminate.
-/

namespace Verif.FArc

open Verif.FEff (Text text)
open Verif.FConv (Ov)
open Verif.FFx (Init Hint)

/-- FCDEffectParameterSurface.h 61-70 and FCDEffectParameterSurface.cpp 26-38: a surface; the defaults are those of a new one. -/
structure Surf where
  names : List Text := []
  images : List Text := []
  init : Option Init := none
  format : Text := text "A8R8G8B8"
  hint : Option Hint := none
  size : Option V3 := some (0, 0, 0)
  ratio : ℚ := 1
  mips : Nat := 0
  generate : Bool := false
  type : Text := text "2D"
deriving DecidableEq

/-! ## Saving -/

/-- An attribute that is written when there is a value. -/
def optAttr (a : Text) (v : Option Text) : List (Text × Text) := match v with
  | some v => [(a, v)]
  | none => []

/-- FAXMaterialExport.cpp 331-339: one element `init_from` with its attributes. -/
def fromNode (mip slice face : List Text) (i : Nat) (id : Text) : Node :=
  .elem (text "init_from") (optAttr (text "mip") mip[i]? ++ optAttr (text "slice") slice[i]? ++ optAttr (text "face") face[i]?) (encode id) []

/-- An element with the attribute `ref`. -/
def refNode (name id : Text) (ks : List Node) : Node := .elem name [(text "ref", id)] [] ks

/-- FAXMaterialExport.cpp 308-417: the elements of the method of initialization; undefined when the first image is needed and there is none. -/
def initNodes (s : Surf) : Option (List Node) := match s.init with
  | none => some []
  | some (.from_ mip slice face) =>
    if s.images.length = face.length ∨ s.images.length = mip.length ∨ s.images.length = slice.length then some (s.images.mapIdx fun i id => fromNode mip slice face i id)
    else some [textChild (text "init_from") (wordsText s.images)]
  | some .asNull => some [leaf (text "init_as_null")]
  | some .asTarget => some [leaf (text "init_as_target")]
  | some (.volume t) =>
    if t = 0 then s.images[0]?.map fun id => [.elem (text "init_volume") [] [] [refNode (text "all") id []]]
    else if t = 1 then s.images[0]?.map fun id => [.elem (text "init_volume") [] [] [refNode (text "primary") id []]]
    else some [leaf (text "init_volume")]
  | some (.cube t _) =>
    if t = 0 then s.images[0]?.map fun id => [.elem (text "init_cube") [] [] [refNode (text "all") id []]]
    else if t = 1 then s.images[0]?.map fun id => [.elem (text "init_cube") [] [] [refNode (text "primary") id [leaf (text "order")]]]
    else if t = 2 then some [.elem (text "init_cube") [] [] (s.images.map fun id => refNode (text "face") id [])]
    else some [leaf (text "init_cube")]
  | some .planar => s.images[0]?.map fun id => [.elem (text "init_planar") [] [] [refNode (text "all") id []]]

/-- FAXMaterialExport.cpp 427-436, FUDaeSyntax.h 357-363: the names of the channels. -/
def channelNames : List Text := [text "RGB", text "RGBA", text "L", text "LA", text "D", text "XYZ", text "XYZW"]

/-- FAXMaterialExport.cpp 438-445: the names of the ranges. -/
def rangeNames : List Text := [text "SNORM", text "UNORM", text "SINT", text "UINT", text "FLOAT", text "LOW"]

/-- FAXMaterialExport.cpp 447-451: the names of the precisions. -/
def precisionNames : List Text := [text "LOW", text "MID", text "HIGH"]

/-- FAXMaterialExport.cpp 453-460: the names of the options. -/
def optionNames : List Text := [text "SRGB_GAMMA", text "NORMALIZED3", text "NORMALIZED4", text "COMPRESSABLE"]

/-- FAXMaterialExport.cpp 427-451: the name of an enumerator; the first of each enumeration is the unknown one. -/
def codeText (names : List Text) (i : Nat) : Text := if i = 0 then text "unknown" else (names[i - 1]?).getD (text "unknown")

/-- FAXMaterialExport.cpp 423-461: the element of the hint. -/
def hintNode (h : Hint) : Node :=
  .elem (text "format_hint") [] [] ([textChild (text "channels") (codeText channelNames h.channels), textChild (text "range") (codeText rangeNames h.range),
    textChild (text "precision") (codeText precisionNames h.precision)] ++ h.options.map fun o => textChild (text "option") ((optionNames[o]?).getD []))

/-- FAXMaterialExport.cpp 462-471: the element of the size or of the ratio. -/
def sizeNodes (fmt : ℚ → Text) (v : V3) (ratio : ℚ) : List Node :=
  if v ≠ (0, 0, 0) then [textChild (text "size") (vecText fmt v)]
  else if ratio ≠ 1 then [textChild (text "viewport_ratio") (numText fmt ratio)]
  else []

/-- FAXMaterialExport.cpp 300-480: the element `surface`; undefined as well when the size is indeterminate. -/
def surfNode (fmt : ℚ → Text) (s : Surf) : Option Node :=
  (initNodes s).bind fun ns => s.size.map fun v =>
    .elem (text "surface") [(text "type", s.type)] [] (ns ++
      (if s.format = [] then [] else [textChild (text "format") s.format]) ++
      (match s.hint with | some h => [hintNode h] | none => []) ++
      sizeNodes fmt v s.ratio ++
      if s.mips = 0 then [] else [textChild (text "mip_levels") (intText s.mips)])

/-! ## Loading -/

/-- An attribute is added to a list when the element has it. -/
def pushAttr (k : Node) (a : Text) (l : List Text) : Option (List Text) := if k.has a then (prop (some k) a).map fun v => l ++ [v] else some l

/-- FAXMaterialImport.cpp 464-497: one element `init_from`: the names, and the lists of mip levels, slices and faces. `ToStringList` adds to the names that there are. -/
def loadFrom (s : List Text × List Text × List Text × List Text) (k : Node) : Option (List Text × List Text × List Text × List Text) :=
  (FConv.toStringList (k.direct ++ [0]) s.1).bind fun l =>
    let names := if l.head? = none ∨ l.head? = some [] then [] else l
    if names.length = 1 then (pushAttr k (text "mip") s.2.1).bind fun m => (pushAttr k (text "slice") s.2.2.1).bind fun sl => (pushAttr k (text "face") s.2.2.2).map fun f => (names, m, sl, f)
    else some (names, s.2)

/-- FAXMaterialImport.cpp 534-539 and others: the name in the attribute `ref` is added to the names, unless it is empty. -/
def pushRef (names : List Text) (k : Node) : Option (List Text) := (prop (some k) (text "ref")).map fun r => if r = [] then names else names ++ [r]

/-- FAXMaterialImport.cpp 523-584: the element `init_cube`. -/
def loadCube (names : List Text) (v : Node) : Option (List Text × Init) :=
  match v.child (text "all"), v.child (text "primary") with
  | some r, _ => (pushRef names r).map fun l => (l, .cube 0 [])
  | none, some r => (pushRef names r).map fun l => (l, .cube 1 [])
  | none, none => if (v.children (text "face")).length = 6 then ((v.children (text "face")).foldlM pushRef names).map fun l => (l, .cube 2 []) else some (names, .cube 0 [])

/-- FAXMaterialImport.cpp 590-624: the element `init_volume`. -/
def loadVolume (names : List Text) (v : Node) : Option (List Text × Init) :=
  match v.child (text "all"), v.child (text "primary") with
  | some r, _ => (pushRef names r).map fun l => (l, .volume 0)
  | none, some r => (pushRef names r).map fun l => (l, .volume 1)
  | none, none => some (names, .volume 0)

/-- FAXMaterialImport.cpp 631-648: the element `init_planar`. -/
def loadPlanar (names : List Text) (v : Node) : Option (List Text × Init) :=
  match v.child (text "all") with
  | some r => (pushRef names r).map fun l => (l, .planar)
  | none => some (names, .planar)

/-- FAXMaterialImport.cpp 499-649: the methods other than `init_from`, in the order in which they are looked for. -/
def loadOtherInit (names : List Text) (n : Node) : Option (List Text × Option Init) :=
  match n.child (text "init_as_null"), n.child (text "init_as_target"), n.child (text "init_cube"), n.child (text "init_volume"), n.child (text "init_planar") with
  | some _, _, _, _, _ => some (names, some .asNull)
  | none, some _, _, _, _ => some (names, some .asTarget)
  | none, none, some v, _, _ => (loadCube names v).map fun r => (r.1, some r.2)
  | none, none, none, some v, _ => (loadVolume names v).map fun r => (r.1, some r.2)
  | none, none, none, none, some v => (loadPlanar names v).map fun r => (r.1, some r.2)
  | none, none, none, none, none => some (names, none)

/-- FAXMaterialImport.cpp 459-649: names and method of initialization of a new surface. -/
def loadInit (n : Node) : Option (List Text × Option Init) :=
  if n.children (text "init_from") = [] then loadOtherInit [] n
  else ((n.children (text "init_from")).foldlM loadFrom ([], [], [], [])).map fun r => (r.1, some (.from_ r.2.1 r.2.2.1 r.2.2.2))

/-- FAXMaterialImport.cpp 682-732: the enumerator of a name. -/
def codeOf (names : List Text) (t : Text) : Nat := match names.findIdx? fun x => decide (x = t) with
  | some i => i + 1
  | none => 0

/-- FAXMaterialImport.cpp 671-748: the hint. -/
def loadHint (n : Node) : Hint where
  channels := codeOf channelNames (direct (n.child (text "channels")))
  range := codeOf rangeNames (direct (n.child (text "range")))
  precision := codeOf precisionNames (direct (n.child (text "precision")))
  options := (n.children (text "option")).filterMap fun k => optionNames.findIdx? fun x => decide (x = k.direct)

/-- FAXMaterialImport.cpp 658-659, FUStringConversion.hpp 226-237: the size; that of an empty text is indeterminate. -/
def readSize (ov : Ov) (t : Text) : Option (Option V3) := if t = [] then some none else (readV3 ov t).map some

/-- FAXMaterialImport.cpp 667-669: the format; without an element that of a new surface. -/
def loadFormat : Option Node → Text
  | some k => k.direct
  | none => text "A8R8G8B8"

/-- FAXMaterialImport.cpp 447-752: a new surface is filled from the element `surface`. -/
def loadSurf (ov : Ov) (n : Node) : Option Surf :=
  (prop (some n) (text "type")).bind fun ty => (loadInit n).bind fun i =>
  (readSize ov (direct (n.child (text "size")))).bind fun sz =>
  (readNum ov (direct (n.child (text "viewport_ratio")))).bind fun ratio =>
  (readInt ov (direct (n.child (text "mip_levels")))).bind fun mips =>
  (readBool (direct (n.child (text "mipmap_generate")))).map fun g =>
    { names := i.1, init := i.2, size := sz, ratio := ratio, mips := (mips % 65536).toNat, generate := g,
      type := if ty = [] then text "2D" else ty,
      format := loadFormat (n.child (text "format")),
      hint := (n.child (text "format_hint")).map loadHint }

/-- FAXImportLinking.cpp 330-340, FCDEffectParameterSurface.cpp 63-80: the images of the names are added, each one once; `doc` are the ids of the images of the document. -/
def linkSurf (doc : List Text) (s : Surf) : Surf :=
  { s with images := s.names.foldl (fun l n => if n ∈ doc ∧ n ∉ l then l ++ [n] else l) s.images }

end Verif.FArc
