import Verif.Arc
import Verif.Extra

/-!
# Model of the saving and loading of extra trees (FArchiveXML/FAXEntityExport.cpp, FAXEntityImport.cpp)

The animated values of the nodes are left out, as in `Verif/Extra.lean`.
-/

namespace Verif.FArc

open Verif.FEff (Text text)

mutual
/-- FAXEntityExport.cpp 161-183: `WriteExtraNode`. -/
def writeENode : FExtra.Node → Node
  | .mk n c as cs => .elem n (as.map fun a => (a.name, a.value)) (encode c) (writeENodes cs)
/-- FAXEntityExport.cpp 186-193: `WriteChildrenFCDENode`: the children. -/
def writeENodes : List FExtra.Node → List Node
  | [] => []
  | c :: cs => writeENode c :: writeENodes cs
end

/-- FAXColladaParser.cpp 77-93: `FindTechnique`: the position among the children. -/
def findTech (ks : List Node) (p : Text) : Option Nat := ks.findIdx? fun k => decide (k.name = text "technique") && decide (prop (some k) (text "profile") = some p)

/-- FAXEntityExport.cpp 41-49 with FAXColladaWriter.cpp 32-46: `WriteExtraTechnique` on the children of the parent: the child nodes go to the technique of the profile, which is made unless it is
there. -/
def writeTech (ks : List Node) (t : FExtra.Tech) : List Node :=
  match findTech ks t.profile with
  | some i => ks.modify i fun k => .elem k.name k.attrs k.direct (k.kids ++ writeENodes t.node.children)
  | none => ks ++ [.elem (text "technique") [(text "profile", t.profile)] [] (writeENodes t.node.children)]

/-- FAXEntityExport.cpp 51-62: `WriteExtraType`; `none` if nothing is written. -/
def writeType (t : FExtra.EType) : Option Node :=
  if t.name = [] ∧ t.techs.length = 0 then none
  else some (.elem (text "extra") (if t.name = [] then [] else [(text "type", t.name)]) [] (t.techs.foldl writeTech []))

/-- FAXEntityExport.cpp 24-39: `WriteExtra`: the elements added to the parent. -/
def writeExtra (e : FExtra.Extra) : List Node := if FExtra.hasContent e then e.filterMap writeType else []

mutual
/-- FAXEntityImport.cpp 45-71: `LoadExtraNode` of a new node. The values of the attributes are taken without decoding. -/
def loadENode : Node → Option FExtra.Node
  | .elem n as t ks => (loadENodes ks).bind fun cs =>
    ((if cs.length = 0 then content (.elem n as t ks) else some []).map fun c => if c = [] then FExtra.Node.mk (FExtra.cleanName n) [] [] cs else FExtra.setContent c (.mk (FExtra.cleanName n) [] [] cs)).map
      fun x => as.foldl (fun x a => FExtra.addAttribute a.1 a.2 x) x
/-- FAXEntityImport.cpp 230-245: `LoadExtraNodeChildren`: the new children. -/
def loadENodes : List Node → Option (List FExtra.Node)
  | [] => some []
  | k :: ks => (loadENode k).bind fun x => (loadENodes ks).map (x :: ·)
end

/-- FAXEntityImport.cpp 88-96: one technique element. -/
def loadTech (ts : List FExtra.Tech) (k : Node) : Option (List FExtra.Tech) :=
  (prop (some k) (text "profile")).bind fun p => (loadENodes k.kids).map fun cs =>
    let r := FExtra.addTechnique ts p
    r.1.modify r.2 fun t => { t with node := .mk t.node.name t.node.content t.node.attrs (t.node.children ++ cs) }

/-- FAXEntityImport.cpp 79-100: `LoadExtraType`. -/
def loadType (ts : List FExtra.Tech) (n : Node) : Option (List FExtra.Tech) := (n.children (text "technique")).foldlM loadTech ts

/-- FAXEntityImport.cpp 31-37: the type to load: that of an `extra` element is added, for other elements it is the default type. -/
def typeFor (e : FExtra.Extra) (n : Node) : Option (FExtra.Extra × Nat) :=
  if n.name = text "extra" then (prop (some n) (text "type")).map (FExtra.addType e) else (FExtra.findType e []).map fun i => (e, i)

/-- FAXEntityImport.cpp 25-42: `LoadExtra`. -/
def loadExtra (e : FExtra.Extra) (n : Node) : Option FExtra.Extra :=
  (typeFor e n).bind fun r => (r.1[r.2]?).bind fun t => (loadType t.techs n).map fun ts => r.1.set r.2 { t with techs := ts }

/-- The `extra` elements of a parent are loaded one after the other, as in FAXSceneImport.cpp 41-47. -/
def loadExtras (e : FExtra.Extra) (ns : List Node) : Option FExtra.Extra := ns.foldlM loadExtra e

end Verif.FArc
