import Verif.Arc
import Verif.Ent
import Verif.Uri
import Verif.Geo

/-!
# Model of the saving and loading of assets (FArchiveXML/FAXEntityExport.cpp, FAXEntityImport.cpp)

Numbers are exact rationals. Warnings about unknown elements have no effect on the asset and are left out.
-/

namespace Verif.FArc

open Verif.FEff (Text text)
open Verif.FConv (Ov DateTime)
open Verif.FEnt (Asset Contributor)

/-- An asset with its date-times and numbers. -/
abbrev QAsset := Asset DateTime ℚ

/-- An element for a text, unless it is empty. -/
def textUnless (name t : Text) : List Node := if t = [] then [] else [textChild name t]

/-- FAXEntityExport.cpp 122-124: the address written for a file. -/
def fileUrl (ov : Ov) (t : Text) : Option Text := (FUri.parse ov t).bind fun u => FXml.convertFilename (FUri.absoluteUri u true ++ [0])

/-- FAXEntityExport.cpp 120-126: the element of the source data. -/
def writeSourceData (ov : Ov) (t : Text) : Option (List Node) := if t = [] then some [] else (fileUrl ov t).map fun u => [textChild (text "source_data") u]

/-- FAXEntityExport.cpp 108-129: `WriteAssetContributor`: the elements added. -/
def writeContributor (ov : Ov) (c : Contributor) : Option (List Node) :=
  if c.isEmpty then some []
  else (writeSourceData ov c.source).map fun s =>
    [.elem (text "contributor") [] []
      (textUnless (text "author") c.author ++ textUnless (text "authoring_tool") c.tool ++ textUnless (text "comments") c.comments ++ textUnless (text "copyright") c.copyright ++ s)]

/-- FAXEntityExport.cpp 76-79: the contributors. -/
def writeContributors (ov : Ov) : List Contributor → Option (List Node)
  | [] => some []
  | c :: cs => (writeContributor ov c).bind fun a => (writeContributors ov cs).map (a ++ ·)

/-- FMVector3.h 253: `IsEquivalent`. -/
def sameAxis (a b : ℚ × ℚ × ℚ) : Bool := Geo.equivalent a.1 b.1 && Geo.equivalent a.2.1 b.2.1 && Geo.equivalent a.2.2 b.2.2

/-- FAXEntityExport.cpp 99-102: the text of the up-axis. -/
def axisText (v : ℚ × ℚ × ℚ) : Text :=
  if sameAxis v (0, 1, 0) then text "Y_UP" else if sameAxis v (1, 0, 0) then text "X_UP" else if sameAxis v (0, 0, 1) then text "Z_UP" else text "Y_UP"

/-- FAXEntityExport.cpp 90-95: the unit. -/
def writeUnit (fmt : ℚ → Text) (a : QAsset) : List Node :=
  if a.hasUnits then [.elem (text "unit") [(text "meter", numText fmt a.unitFactor), (text "name", a.unitName)] [] []] else []

/-- FAXEntityExport.cpp 97-104: the up-axis. -/
def writeAxis (a : QAsset) : List Node := if a.hasUpAxis then [textChild (text "up_axis") (axisText a.upAxis)] else []

/-- FAXEntityExport.cpp 64-106: `WriteAsset` at the time `now`: the element and the asset, whose time of modification changes. -/
def writeAsset (ov : Ov) (fmt : ℚ → Text) (now : DateTime) (a : QAsset) : Option (Node × QAsset) :=
  let a := { a with modified := now }
  (writeContributors ov a.contributors).map fun cs =>
    (.elem (text "asset") [] []
      (cs ++ [textChild (text "created") (FConv.dateText a.created)] ++ textUnless (text "keywords") a.keywords ++ [textChild (text "modified") (FConv.dateText a.modified)] ++
        textUnless (text "revision") a.revision ++ textUnless (text "subject") a.subject ++ textUnless (text "title") a.title ++ writeUnit fmt a ++ writeAxis a), a)

/-- FAXEntityImport.cpp 174-196: one element of a contributor. -/
def loadContributorChild (c : Contributor) (k : Node) : Option Contributor :=
  (content k).map fun t =>
    if k.name = text "author" then { c with author := t }
    else if k.name = text "authoring_tool" then { c with tool := t }
    else if k.name = text "comments" then { c with comments := t }
    else if k.name = text "copyright" then { c with copyright := t }
    else if k.name = text "source_data" then { c with source := t }
    else c

/-- FAXEntityImport.cpp 164-200: `LoadAssetContributor`. -/
def loadContributor (c : Contributor) (n : Node) : Option Contributor := n.kids.foldlM loadContributorChild c

/-- FAXEntityImport.cpp 143-146: the unit. -/
def loadUnit (ov : Ov) (a : QAsset) (k : Node) : Option QAsset :=
  (prop (some k) (text "name")).bind fun n => (prop (some k) (text "meter")).bind fun m => (readNum ov m).map fun f =>
    let a : QAsset := { a with unitName := n }.setFactor f
    let a : QAsset := if a.unitName = [] then { a with unitName := text "UNKNOWN" } else a
    if Geo.equivalent a.unitFactor 0 || decide (a.unitFactor < 0) then a.setFactor 1 else a

/-- FAXEntityImport.cpp 150-152: the up-axis. -/
def loadAxis (a : QAsset) (t : Text) : QAsset :=
  if t = text "X_UP" then a.setUpAxis (1, 0, 0) else if t = text "Y_UP" then a.setUpAxis (0, 1, 0) else if t = text "Z_UP" then a.setUpAxis (0, 0, 1) else a

/-- FAXEntityImport.cpp 109-157: one element of an asset. -/
def loadAssetChild (ov : Ov) (a : QAsset) (k : Node) : Option QAsset :=
  (content k).bind fun t =>
    if k.name = text "contributor" then (loadContributor {} k).map fun c => { a with contributors := a.contributors ++ [c] }
    else if k.name = text "created" then (FConv.toDateTime (t ++ [0]) a.created).map fun d => { a with created := d }
    else if k.name = text "keywords" then some { a with keywords := t }
    else if k.name = text "modified" then (FConv.toDateTime (t ++ [0]) a.modified).map fun d => { a with modified := d }
    else if k.name = text "revision" then some { a with revision := t }
    else if k.name = text "subject" then some { a with subject := t }
    else if k.name = text "title" then some { a with title := t }
    else if k.name = text "unit" then loadUnit ov a k
    else if k.name = text "up_axis" then some (loadAxis a t)
    else some a

/-- FAXEntityImport.cpp 102-162: `LoadAsset`. -/
def loadAsset (ov : Ov) (a : QAsset) (n : Node) : Option QAsset := n.kids.foldlM (loadAssetChild ov) a

end Verif.FArc
