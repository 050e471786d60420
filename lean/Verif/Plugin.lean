import Verif.Path
import Verif.Crc32
import Verif.Effect

/-!
# Model of the plug-ins of the library (FCollada/FColladaPlugin.cpp 68-247, FColladaPlugins/FArchiveXML/FArchiveXML.cpp 87, 112-165)

Archive plug-ins are the lists of the extensions they support, in the order in which they were registered. The techniques of all extra trees of a document are one list: the order in which `GetExtraTrees` gives the trees does not
matter, since each technique is handled alone. The nodes below a technique are a list of things of a type `N`, the objects of plug-ins are of a type `O`. `none` is undefined behaviour where the comment says so.
-/

namespace Verif.FPlugin

open Verif.FStr (Ch)
open Verif.FEff (Text text)

/-- `tolower` of one character in `strcasecmp` (Platforms.h: `_stricmp`), in the "C" locale. -/
def low (c : Ch) : Ch := if 65 ≤ c ∧ c ≤ 90 then c + 32 else c

/-- FUString.h 545-548: `IsEquivalentI`. -/
def sameI (a b : Text) : Bool := decide (a.map low = b.map low)

/-- FArchiveXML.cpp 87: `kArchivePluginExtensions`. -/
def builtin : List Text := [text "dae", text "xml"]

/-- FArchiveXML.cpp 148-165: `GetSupportedExtensionAt`: outer `none` is an index before the array, inner `none` is `NULL`. -/
def extAt (extra : List Text) (i : Int) : Option (Option Text) :=
  if i < 0 then none
  else if i < 2 then some builtin[i.toNat]?
  else some extra[(i - 2).toNat]?

/-- FArchiveXML.h 76: `GetSupportedExtensionsCount`. -/
def extCount (extra : List Text) : Nat := 2 + extra.length

/-- FArchiveXML.cpp 136-145: the loop of `IsExtensionSupported`, with `n` indices left from `i` on. -/
def supportedFrom (extra : List Text) (e : Text) (i : Nat) : Nat → Option Bool
  | 0 => some false
  | n + 1 => (extAt extra i).bind fun s => if s = some e then some true else supportedFrom extra e (i + 1) n

/-- FArchiveXML.cpp 136-145: `IsExtensionSupported`. -/
def isSupported (extra : List Text) (e : Text) : Option Bool := supportedFrom extra e 0 (extCount extra)

/-- FArchiveXML.cpp 112-119: `AddExtraExtension`: the list afterwards and the result. -/
def addExt (extra : List Text) (e : Text) : Option (List Text × Bool) :=
  (isSupported extra e).map fun b => if b then (extra, false) else (extra ++ [e], true)

/-- FArchiveXML.cpp 122-133: `RemoveExtraExtension`. -/
def removeExt (extra : List Text) (e : Text) : List Text × Bool := match extra with
  | [] => ([], false)
  | x :: xs => if x = e then (xs, true) else (x :: (removeExt xs e).1, (removeExt xs e).2)

/-- FColladaPlugin.cpp 156-169: the search of `FindArchivePlugin` for an extension. -/
def findByExt (archives : List (List Text)) (e : Text) : Option Nat := archives.findIdx? fun es => es.any (sameI e)

/-- FColladaPlugin.cpp 151-169: `FindArchivePlugin`; outer `none` is undefined behaviour in the reading of the address (C23) or of the extension (C46). -/
def findArchive (ov : FConv.Ov) (archives : List (List Text)) (filename : Text) : Option (Option Nat) :=
  (FUri.parse ov filename).bind fun u => (FPath.extension u.path).map fun e => findByExt archives e

/-- FCDExtra.h 439-477: a technique with its profile, its nodes and the object of a plug-in. -/
structure Tech (N O : Type) where
  profile : Text
  nodes : List N := []
  obj : Option O := none

/-- FColladaPlugin.h 36-69: `FCPExtraTechnique`: `ReadFromArchive` and `WriteToArchive` of the technique's nodes. -/
structure Plug (N O : Type) where
  profile : Text
  read : List N → Option O
  write : O → List N → List N

variable {N O : Type}

/-- FUCrc32.cpp 69-79: the hash of a text and its terminator. -/
def crcOf (t : Text) : Option (BitVec 32) := Crc32.crc32 (t.map (BitVec.ofInt 8) ++ [0#8])

/-- FColladaPlugin.cpp 91-98 with FMTree.h 418-437: the plug-in that the map gives for a profile: an equal key is overwritten, the last one counts. -/
def plugFor (ps : List (Plug N O)) (profile : Text) : Option (Plug N O) := ps.reverse.find? fun p => decide (crcOf p.profile = crcOf profile)

/-- FColladaPlugin.cpp 68-88: `RegisterPlugin` of a plug-in for extra trees. -/
def registerPlug (ps : List (Plug N O)) (p : Plug N O) : List (Plug N O) × Bool := if p.profile = [] then (ps, false) else (ps ++ [p], true)

/-- FColladaPlugin.cpp 187-200: one technique of `PostImportDocument`. -/
def readTech (ps : List (Plug N O)) (t : Tech N O) : Tech N O := match plugFor ps t.profile with
  | none => t
  | some p => match p.read t.nodes with
    | none => t
    | some o => ⟨t.profile, [], some o⟩

/-- FColladaPlugin.cpp 221-235: one technique of `PreExportDocument`: the technique while it is written, and whether it is remembered. -/
def writeTech (ps : List (Plug N O)) (t : Tech N O) : Tech N O × Bool := match t.obj, plugFor ps t.profile with
  | some o, some p => (⟨t.profile, p.write o t.nodes, some o⟩, true)
  | _, _ => (t, false)

/-- FColladaPlugin.cpp 241-247: one technique of `PostExportDocument`. -/
def cleanTech (r : Tech N O × Bool) : Tech N O := if r.2 then { r.1 with nodes := [] } else r.1

/-- FColladaPlugin.cpp 133-148: `SaveDocumentToFile`: what the archive writes, that is the profiles and the nodes, and the document afterwards. -/
def saveTechs (ps : List (Plug N O)) (ts : List (Tech N O)) : List (Text × List N) × List (Tech N O) :=
  (ts.map fun t => ((writeTech ps t).1.profile, (writeTech ps t).1.nodes), ts.map fun t => cleanTech (writeTech ps t))

/-- FColladaPlugin.cpp 101-114: `LoadDocumentFromFile` after the archive has read the profiles and the nodes. -/
def loadTechs (ps : List (Plug N O)) (f : List (Text × List N)) : List (Tech N O) := f.map fun x => readTech ps ⟨x.1, x.2, none⟩

end Verif.FPlugin
