import Verif.ArcPass
import Verif.ArcParam
import Verif.ArcExtra

/-!
# Saving and loading of codes, techniques and FX profiles

Models `WriteEffectCode`, `WriteEffectTechnique`, `WriteEffectProfile`, `WriteEffectProfileFX` (`/repo/FColladaPlugins/FArchiveXML/FAXMaterialExport.cpp` 69-113, 855-896, 988-1026), `LoadEffectCode`, `LoadEffectProfile`,
`LoadEffectProfileFX` and `LoadEffectTechnique` (`FAXMaterialImport.cpp` 87-119, 1145-1214, 1402-1451). The translation between the names of files and the urls of the document depends on the file manager and is a
parameter (`Urls`). Flags for objects that are not written (`LetWriteObject`) are left out, as are images declared within techniques and profiles, which the library never writes.
-/

namespace Verif.FArc

open Verif.FEff (Text text)
open Verif.FConv (Ov)
open Verif.FPass (Shader Pass Tech)

/-- The two translations of the file manager: FAXMaterialExport.cpp 104-105 and FAXMaterialImport.cpp 109-110. -/
structure Urls where
  write : Text → Text
  read : Text → Text

/-- FCDEffectCode.h 46-55: a code, with an identity; the defaults are those of a new one (FCDEffectCode.cpp 18-25). -/
structure FxCode where
  id : Nat
  isInclude : Bool := true
  sid : Text := []
  file : Text := []
  code : Text := []
deriving DecidableEq

/-- FCDEffectTechnique.h: a technique. -/
structure FxTech where
  name : Text := []
  codes : List FxCode := []
  params : List Parm := []
  passes : List Pass := []

/-- FCDEffectProfileFX.h: a profile, its extra with it. -/
structure FxProfile where
  platform : Text := []
  codes : List FxCode := []
  params : List Parm := []
  techs : List FxTech := []
  extra : FExtra.Extra := FExtra.newExtra

/-- What a shader refers to. -/
def FxCode.short (c : FxCode) : FPass.Code := ⟨c.id, c.sid⟩

/-! ## Saving -/

/-- FAXMaterialExport.cpp 76-83: the elements that a code stays behind. -/
def isEarly (n : Node) : Bool := decide (n.name = text "asset" ∨ n.name = text "code" ∨ n.name = text "include")

/-- FAXMaterialExport.cpp 73-83, 92-93, 100-101: a code is put behind the first codes of its parent. -/
def insertCode (c p : Node) : Node := .elem p.name p.attrs p.direct (p.kids.takeWhile isEarly ++ c :: p.kids.dropWhile isEarly)

/-- The name of the element of a code. -/
def codeElem (c : FxCode) : Text := if c.isInclude then text "include" else text "code"

/-- FAXMaterialExport.cpp 69-113: `WriteEffectCode` below the element `p`, itself within `around`: the element `p` and the code afterwards. The search for a free sub-id does not depend on the place of the new element
within `p`; here it sees it at the end. -/
def writeCode (urls : Urls) (around : List Node) (p : Node) (c : FxCode) : Option (Node × FxCode) :=
  (putSid (p :: around) (.elem (codeElem c) [] (if c.isInclude then [] else encode c.code) []) (if c.sid = [] then codeElem c else c.sid)).map fun r =>
    (insertCode (if c.isInclude then r.1.put (text "url") (urls.write c.file) else r.1) p, { c with sid := r.2 })

/-- FAXMaterialExport.cpp 883-886, 998-1001: the codes in turn. -/
def writeCodes (urls : Urls) (around : List Node) : Node → List FxCode → Option (Node × List FxCode)
  | p, [] => some (p, [])
  | p, c :: cs => (writeCode urls around p c).bind fun r => (writeCodes urls around r.1 cs).map fun q => (q.1, r.2 :: q.2)

/-- Several children at the end. -/
def addKids (n : Node) (ks : List Node) : Node := .elem n.name n.attrs n.direct (n.kids ++ ks)

/-- The code of a shader with the sub-id that it has at the moment; `cs` are the codes of the technique and of the profile. -/
def refresh (cs : List FxCode) (s : Shader) : Shader := { s with code := s.code.map fun c => ((cs.find? fun d => decide (d.id = c.id)).map FxCode.short).getD c }

/-- The shaders of a pass see the codes as they are at the moment. -/
def refreshPass (cs : List FxCode) (p : Pass) : Pass := { p with shaders := p.shaders.map (refresh cs) }

/-- FAXMaterialExport.cpp 1014-1018: the passes in turn, below the element `n`. -/
def writePasses (fmt : ℚ → Text) (around : List Node) : Node → List Pass → Option (Node × List Pass)
  | n, [] => some (n, [])
  | n, p :: ps => (writePass fmt (n :: around) p).bind fun r => (writePasses fmt around (Node.add r.1 n) ps).map fun q => (q.1, { p with name := r.2 } :: q.2)

/-- FAXMaterialExport.cpp 1010-1023: the passes, or an empty one. -/
def passesOrDummy (fmt : ℚ → Text) (around : List Node) (n : Node) (ps : List Pass) : Option (Node × List Pass) :=
  if ps = [] then some (Node.add (leaf (text "pass")) n, []) else writePasses fmt around n ps

/-- FAXMaterialExport.cpp 988-1026: `WriteEffectTechnique`: the element, and the technique afterwards. -/
def writeFxTech (fmt : ℚ → Text) (urls : Urls) (around : List Node) (prof : List FxCode) (t : FxTech) : Option (Node × FxTech) :=
  (putSid around (leaf (text "technique")) (if t.name = [] then text "common" else t.name)).bind fun r =>
    (writeCodes urls around r.1 t.codes).bind fun c => (t.params.mapM (writeParm fmt)).bind fun ks =>
      (passesOrDummy fmt around (addKids c.1 ks) (t.passes.map (refreshPass (c.2 ++ prof)))).map fun q => (q.1, ⟨r.2, c.2, t.params, q.2⟩)

/-- FAXMaterialExport.cpp 889-892: the techniques in turn. -/
def writeFxTechs (fmt : ℚ → Text) (urls : Urls) (around : List Node) (prof : List FxCode) : Node → List FxTech → Option (Node × List FxTech)
  | n, [] => some (n, [])
  | n, t :: ts => (writeFxTech fmt urls (n :: around) prof t).bind fun r => (writeFxTechs fmt urls around prof (Node.add r.1 n) ts).map fun q => (q.1, r.2 :: q.2)

/-- FAXMaterialExport.cpp 879: the attribute for the platform. -/
def putPlatform (t : Text) (n : Node) : Node := if t = [] then n else n.put (text "platform") t

/-- FAXMaterialExport.cpp 855-896: `WriteEffectProfileFX`, with the name of the profile: the element, and the profile afterwards. -/
def writeFx (fmt : ℚ → Text) (urls : Urls) (around : List Node) (name : Text) (p : FxProfile) : Option (Node × FxProfile) :=
  (p.params.mapM (writeParm fmt)).bind fun ks => (writeCodes urls around (putPlatform p.platform (.elem name [] [] ks)) p.codes).bind fun c =>
    (writeFxTechs fmt urls around c.2 c.1 p.techs).map fun q => (addKids q.1 (writeExtra p.extra), { p with codes := c.2, techs := q.2 })

/-! ## Loading -/

/-- FAXMaterialImport.cpp 87-119: `LoadEffectCode` of a new code. -/
def loadCode (urls : Urls) (id : Nat) (n : Node) : Option FxCode :=
  (prop (some n) (text "sid")).bind fun s => (FLib.cleanSubId s).bind fun sid =>
    if n.name = text "include" then (prop (some n) (text "url")).map fun u => { id := id, sid := sid, file := urls.read u }
    else (content n).map fun c => { id := id, isInclude := false, sid := sid, code := c }

/-- FAXMaterialImport.cpp 1427-1446: a child of a technique. New codes have identities after those of the profile. -/
def loadFxTechKid (ov : Ov) (urls : Urls) (prof : List FxCode) (t : FxTech) (k : Node) : Option FxTech :=
  if k.name = text "pass" then (loadPass ov ⟨t.codes.map FxCode.short, some (prof.map FxCode.short)⟩ k {}).map fun p => { t with passes := t.passes ++ [p] }
  else if k.name = text "newparam" ∨ k.name = text "setparam" then (loadParm ov (text "technique") k).map fun p => { t with params := t.params ++ [p] }
  else if k.name = text "code" ∨ k.name = text "include" then (loadCode urls (prof.length + t.codes.length) k).map fun c => { t with codes := t.codes ++ [c] }
  else some t

/-- FAXMaterialImport.cpp 1402-1451: `LoadEffectTechnique` of a new technique. -/
def loadFxTech (ov : Ov) (urls : Urls) (prof : List FxCode) (n : Node) : Option FxTech :=
  if n.name ≠ text "technique" then some {} else (prop (some n) (text "sid")).bind fun s => n.kids.foldlM (loadFxTechKid ov urls prof) { name := s }

/-- FAXMaterialImport.cpp 1200-1209: a child of a profile, second time. -/
def loadFxKid (ov : Ov) (urls : Urls) (p : FxProfile) (k : Node) : Option FxProfile :=
  if k.name = text "technique" then (loadFxTech ov urls p.codes k).map fun t => { p with techs := p.techs ++ [t] }
  else if k.name = text "code" ∨ k.name = text "include" then (loadCode urls p.codes.length k).map fun c => { p with codes := p.codes ++ [c] }
  else some p

/-- FAXMaterialImport.cpp 1164-1178: a child of a profile with the name `name`, first time. -/
def loadFxFirst (ov : Ov) (name : Text) (p : FxProfile) (k : Node) : Option FxProfile :=
  if k.name = text "newparam" then (loadParm ov name k).map fun q => { p with params := p.params ++ [q] }
  else if k.name = text "extra" then (loadExtra p.extra k).map fun e => { p with extra := e }
  else some p

/-- FAXMaterialImport.cpp 1145-1214: `LoadEffectProfileFX` of a new profile with the name `name`. -/
def loadFx (ov : Ov) (urls : Urls) (name : Text) (n : Node) : Option FxProfile :=
  (if n.name = name then n.kids.foldlM (loadFxFirst ov name) {} else some {}).bind fun p => (prop (some n) (text "platform")).bind fun s => n.kids.foldlM (loadFxKid ov urls) { p with platform := s }

end Verif.FArc
