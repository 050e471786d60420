import Verif.ArcTrans
import Verif.ArcEntity
import Verif.Path

/-!
# Model of the saving and loading of scene nodes (FArchiveXML/FAXSceneExport.cpp, FAXSceneImport.cpp)

A node is written in full by its first parent, and as a link by the others; the nodes of a visual scene are therefore a tree with links. The ids of the nodes are different (C28, C69), so that an id
stands for the node. Instances of other entities are given as the elements written for them; loading one is taken to be a success. Left out are animated values, instances of force fields and emitters
(which are written as extra trees), instances of nodes that are given explicitly, and the layers and times that the main visual scene writes.
-/

namespace Verif.FArc

open Verif.FEff (Text text)
open Verif.FConv (Ov DateTime)

/-- FCDSceneNode.h 55-75: a scene node without its children. -/
structure Head where
  ent : Ent := {}
  sid : Text := []
  joint : Bool := false
  visibility : ℚ := 1
  trans : List (Trans × Text) := []
  insts : List Node := []

/-- FCDSceneNode.h 55-75: a scene node with its children; those whose first parent is another node are links. -/
inductive SNode where
  | own (head : Head) (kids : List SNode)
  | link (id : Text)

/-- The id of the node. -/
def SNode.id : SNode → Text
  | .own h _ => h.ent.id
  | .link t => t

/-- FCDocument.h: what a visual scene fills in the document: the ids of the nodes, the start and end time, and the layers. -/
structure Doc where
  seen : List Text := []
  start : Option ℚ := none
  stop : Option ℚ := none
  layers : List (Text × List Text) := []

/-! ## Writing -/

/-- FAXSceneExport.cpp 49-61 with 246-264: the attributes; the root of a visual scene has no sub-id and type. -/
def nodeAttrs (root : Bool) (h : Head) : List (Text × Text) :=
  entAttrs true h.ent ++ if root then [] else (if h.sid = [] then [] else [(text "sid", h.sid)]) ++ [(text "type", if h.joint then text "JOINT" else text "NODE")]

/-- FAXSceneExport.cpp 49-79: the element with its asset and transforms. -/
def openNode (ov : Ov) (fmt : ℚ → Text) (now : DateTime) (root : Bool) (h : Head) : Option Node :=
  (writeEntAsset ov fmt now h.ent.asset).bind fun a =>
    (writeTransforms fmt (.elem (if root then text "visual_scene" else text "node") (nodeAttrs root h) [] a.1) h.trans).map (·.1)

/-- FAXSceneExport.cpp 63-70, FCDSceneNode.h 245: the extra tree with the visibility, unless the node is visible; the text of a `bool` is that of the number. -/
def withVisibility (root : Bool) (h : Head) : Option FExtra.Extra :=
  if root || decide (h.visibility > 1 / 2) then some h.ent.extra
  else onDefault (pushParam (text "visibility") (intText (if h.visibility ≥ 1 / 2 then 1 else 0))) h.ent.extra

/-- FAXSceneExport.cpp 155-156: the elements of the extra tree. -/
def sceneExtra (root : Bool) (h : Head) : Option (List Node) := (withVisibility root h).bind fun e => (writeEntityExtra h.ent.note e).map (·.1)

/-- FAXSceneExport.cpp 135-137, FAXInstanceExport.cpp 67-89: the link to a node. -/
def linkNode (ov : Ov) (id : Text) : Option Node :=
  (FUri.parse ov (35 :: id)).bind fun u => (FPath.cleanUri ov [] false u).map fun t => .elem (text "instance_node") [(text "url", t)] [] []

/-- FAXSceneExport.cpp 116-140: the links among the children. -/
def writeLinks (ov : Ov) : List SNode → Option (List Node)
  | [] => some []
  | .link t :: ks => (linkNode ov t).bind fun n => (writeLinks ov ks).map (n :: ·)
  | .own .. :: ks => writeLinks ov ks

mutual
/-- FAXSceneExport.cpp 39-166: `WriteSceneNode`. A link is written by its parent. -/
def writeSNode (ov : Ov) (fmt : ℚ → Text) (now : DateTime) (root : Bool) : SNode → Option Node
  | .link t => linkNode ov t
  | .own h ks => (openNode ov fmt now root h).bind fun n => (writeLinks ov ks).bind fun ls => (writeOwns ov fmt now ks).bind fun os => (sceneExtra root h).map fun x =>
    .elem n.name n.attrs n.direct (n.kids ++ h.insts ++ ls ++ os ++ x)
/-- FAXSceneExport.cpp 142-150: the children that are written in full. -/
def writeOwns (ov : Ov) (fmt : ℚ → Text) (now : DateTime) : List SNode → Option (List Node)
  | [] => some []
  | .link _ :: ks => writeOwns ov fmt now ks
  | .own h js :: ks => (writeSNode ov fmt now false (.own h js)).bind fun n => (writeOwns ov fmt now ks).map (n :: ·)
end

/-! ## Loading -/

/-- FCDSceneNode.cpp 177-220: `SetSubId` of a node without children: `above` are the sub-ids of the nodes above it. -/
def givenSid (above : List Text) (t : Text) : Option Text :=
  if t = [] then some [] else (FLib.cleanSubId t).bind fun c => FLib.subLoop (fun x => some (decide (x = []) || above.contains x)) t 513 0 c

/-- FAXSceneImport.cpp 106-126: the common part of an entity, the sub-id and the type of a new node. -/
def loadNodeHead (ov : Ov) (now : DateTime) (above : List Text) (n : Node) : Option Head :=
  (loadEnt ov now {} n).bind fun e => (prop (some n) (text "sid")).bind fun s => (givenSid above s).bind fun s => (prop (some n) (text "type")).map fun ty =>
    { ent := e, sid := s, joint := decide (ty = text "JOINT") }

/-- FAXInstanceImport.cpp 442-453: the elements of instances, without that of nodes. -/
def instNames : List Text :=
  [text "instance_camera", text "instance_controller", text "instance_emitter", text "instance_force_field", text "instance_geometry", text "sprite", text "instance_light"]

/-- What was loaded from the child elements so far. -/
structure Acc where
  trans : List (Trans × Text) := []
  insts : List Node := []
  kids : List SNode := []
  doc : Doc := {}
  ok : Bool := true

/-- FAXSceneImport.cpp 142-167, FCDSceneNode.cpp 91-117: a link to a node; `path` are the ids of this node and of those above it. Links to nodes that are not loaded yet are lost, and those to this node, to
a node above it and to a node that is a child already are refused. -/
def loadLink (ov : Ov) (path : List Text) (a : Acc) (k : Node) : Option Acc :=
  (prop (some k) (text "url")).bind fun t => (FUri.parse ov t).map fun u =>
    if FUri.isFile u.path then { a with insts := a.insts ++ [k] }
    else if a.doc.seen.contains u.fragment && !path.contains u.fragment && !(a.kids.map SNode.id).contains u.fragment then { a with kids := a.kids ++ [.link u.fragment] }
    else a

/-- FAXSceneImport.cpp 142-193: a child element that is not a node. -/
def loadOther (ov : Ov) (len : V3 → ℚ) (path : List Text) (a : Acc) (k : Node) : Option Acc :=
  if k.name = text "instance_node" then loadLink ov path a k
  else if k.name = text "extra" ∨ k.name = text "asset" then some a
  else match newTrans k.name with
    | some old => (loadTransChild ov len old k).map fun r => { a with trans := a.trans ++ [r.1], ok := a.ok && r.2 }
    | none => some (if instNames.contains k.name then { a with insts := a.insts ++ [k] } else a)

/-- FCDExtra.cpp 300-307: the value of an attribute. -/
def attrValue (x : FExtra.Node) (a : Text) : Option Text := (FExtra.findAttribute x.attrs a).bind fun i => (x.attrs[i]?).map (·.value)

/-- FAXSceneImport.cpp 243: a layer. -/
def isLayer (x : FExtra.Node) : Bool := decide (x.name = text "layer") || decide (attrValue x (text "type") = some (text "layer"))

/-- FAXSceneImport.cpp 227-258: a parameter that is taken out of the extra tree. -/
def sceneTaken (x : FExtra.Node) : Bool :=
  decide (x.children.length = 0) && (decide (x.name = text "start_time") || decide (x.name = text "end_time") || decide (x.name = text "visibility") || (isLayer x && (attrValue x (text "name")).isSome))

/-- FAXSceneImport.cpp 227-258: what is done for one of them: the document and the visibility. -/
def takeParam (ov : Ov) (s : Doc × ℚ) (x : FExtra.Node) : Option (Doc × ℚ) :=
  if x.name = text "start_time" then (readNum ov x.content).map fun q => ({ s.1 with start := some q }, s.2)
  else if x.name = text "end_time" then (readNum ov x.content).map fun q => ({ s.1 with stop := some q }, s.2)
  else if x.name = text "visibility" then (readBool x.content).map fun b => (s.1, if b then 1 else 0)
  else match attrValue x (text "name") with
    | some n => (FConv.toStringList (x.content ++ [0]) []).map fun l => ({ s.1 with layers := s.1.layers ++ [(n, l)] }, s.2)
    | none => some s

/-- FAXSceneImport.cpp 261-292: the elements that are loaded as instances from the extra tree, the extra tree without them, and whether all child nodes were such. -/
def extraInsts (e : FExtra.Extra) : List Node × FExtra.Extra × Bool :=
  match FExtra.findType e (text "instances") with
  | none => ([], e, true)
  | some i =>
    match (e[i]?).bind fun t => FExtra.findTechnique t.techs (text "FCOLLADA") with
    | none => ([], e, true)
    | some j =>
      let isInst := fun x : FExtra.Node => instNames.contains x.name || decide (x.name = text "instance_node")
      let cs := ((((e[i]?).bind fun t => t.techs[j]?).map fun t => t.node.children)).getD []
      ((cs.filter isInst).map writeENode,
        e.modify i fun t => { t with techs := t.techs.modify j fun t => { t with node := .mk t.node.name t.node.content t.node.attrs (cs.filter fun x => !isInst x) } },
        cs.all isInst)

/-- FAXSceneImport.cpp 202-296: `LoadFromExtraSceneNode`. -/
def loadSceneExtra (ov : Ov) (d : Doc) (h : Head) : Option (Doc × Head × Bool) :=
  (defaultTechs h.ent.extra).bind fun ts =>
    ((ts.flatMap fun t => t.node.children.filter sceneTaken).foldlM (takeParam ov) (d, h.visibility)).bind fun s =>
    (onDefault (fun ts => ts.map fun t => { t with node := .mk t.node.name t.node.content t.node.attrs (t.node.children.filter fun x => !sceneTaken x) }) h.ent.extra).map fun e =>
    let r := extraInsts e
    (s.1, { h with ent := { h.ent with extra := r.2.1 }, visibility := s.2, insts := h.insts ++ r.1 }, r.2.2)

mutual
/-- FAXSceneImport.cpp 104-200: `LoadSceneNode` of a new node: the node, the document, and whether that is a success. -/
def loadSNode (ov : Ov) (len : V3 → ℚ) (now : DateTime) (above path : List Text) (d : Doc) : Node → Option (SNode × Doc × Bool)
  | .elem n as t ks => (loadNodeHead ov now above (.elem n as t ks)).bind fun h =>
    (loadSKids ov len now (h.sid :: above) (h.ent.id :: path) { doc := { d with seen := h.ent.id :: d.seen } } ks).bind fun a =>
    (loadSceneExtra ov a.doc { h with trans := a.trans, insts := a.insts }).map fun r => (.own r.2.1 a.kids, r.1, a.ok && r.2.2)
/-- FAXSceneImport.cpp 128-194: the loop over the child elements. The success of a child node replaces that of the elements before it. -/
def loadSKids (ov : Ov) (len : V3 → ℚ) (now : DateTime) (above path : List Text) (a : Acc) : List Node → Option Acc
  | [] => some a
  | k :: ks =>
    if k.name = text "node" then
      (loadSNode ov len now above path a.doc k).bind fun r =>
        if r.2.2 then loadSKids ov len now above path { a with kids := a.kids ++ [r.1], doc := r.2.1, ok := true } ks
        else some { a with kids := a.kids ++ [r.1], doc := r.2.1, ok := false }
    else (loadOther ov len path a k).bind fun a => loadSKids ov len now above path a ks
end

end Verif.FArc
