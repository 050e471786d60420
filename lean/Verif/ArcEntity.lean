import Verif.ArcAsset
import Verif.ArcExtra
import Verif.Lib

/-!
# Model of the saving and loading of entities (FArchiveXML/FAXSceneExport.cpp, FAXSceneImport.cpp)

The common part of all entities: id, name, note, asset, extra tree and target. The id is the text in the file: making it unique in the document is C28 and C69. The rest of an entity is given as the
elements between the asset and the extra trees.
-/

namespace Verif.FArc

open Verif.FEff (Text text)
open Verif.FConv (Ov DateTime)
open Verif.FEnt (Asset)

/-- FCDEntity.h 86-89 and FCDTargetedEntity.h: the common part of an entity; the target is the id of the target node, empty without target. -/
structure Ent where
  id : Text := []
  name : Text := []
  note : Text := []
  asset : Option QAsset := none
  extra : FExtra.Extra := FExtra.newExtra
  target : Text := []
deriving Inhabited

/-- FCDExtra.h 79: the techniques of the default type are changed by `f`; `none` if there is no such type. -/
def onDefault (f : List FExtra.Tech → List FExtra.Tech) (e : FExtra.Extra) : Option FExtra.Extra :=
  (FExtra.findType e []).map fun i => e.modify i fun t => { t with techs := f t.techs }

/-- The techniques of the default type. -/
def defaultTechs (e : FExtra.Extra) : Option (List FExtra.Tech) := (FExtra.findType e []).bind fun i => (e[i]?).map (·.techs)

/-- FAXSceneExport.cpp 276-278, 305-306: `AddTechnique` of the profile of the library and `AddParameter`. -/
def pushParam (n v : Text) (ts : List FExtra.Tech) : List FExtra.Tech :=
  let r := FExtra.addTechnique ts (text "FCOLLADA")
  r.1.modify r.2 fun t => { t with node := FExtra.addParameter n v t.node }

/-- FAXSceneExport.cpp 284-287, 315-316: the last parameter is released, and then the technique if it has no child nodes. -/
def popParam (ts : List FExtra.Tech) : List FExtra.Tech :=
  match FExtra.findTechnique ts (text "FCOLLADA") with
  | none => ts
  | some i =>
    let ts := ts.modify i fun t => { t with node := .mk t.node.name t.node.content t.node.attrs t.node.children.dropLast }
    match ts[i]? with
    | some t => if t.node.children.length = 0 then ts.eraseIdx i else ts
    | none => ts

/-- FAXSceneExport.cpp 266-290: `WriteEntityExtra`: the elements and the extra tree afterwards. -/
def writeEntityExtra (note : Text) (e : FExtra.Extra) : Option (List Node × FExtra.Extra) :=
  if note = [] then some (writeExtra e, e)
  else (onDefault (pushParam (text "user_properties") note) e).bind fun e => (onDefault popParam e).map fun e' => (writeExtra e, e')

/-- FAXSceneExport.cpp 300-322: `WriteTargetedEntityExtra`. -/
def writeTargetExtra (target note : Text) (e : FExtra.Extra) : Option (List Node × FExtra.Extra) :=
  if target = [] then writeEntityExtra note e
  else (onDefault (pushParam (text "target") (35 :: target)) e).bind fun e => (writeEntityExtra note e).bind fun r => (onDefault popParam r.2).map fun e' => (r.1, e')

/-- FAXSceneExport.cpp 261: the element of the asset. -/
def writeEntAsset (ov : Ov) (fmt : ℚ → Text) (now : DateTime) (a : Option QAsset) : Option (List Node × Option QAsset) :=
  match a with
  | none => some ([], none)
  | some a => (writeAsset ov fmt now a).map fun r => ([r.1], some r.2)

/-- FAXSceneExport.cpp 246-264: the attributes of `WriteToEntityXMLFCDEntity`. -/
def entAttrs (writeId : Bool) (s : Ent) : List (Text × Text) := (if writeId then [(text "id", s.id)] else []) ++ if s.name = [] then [] else [(text "name", s.name)]

/-- FAXSceneExport.cpp 246-264, 300-322: an entity with the elements `mid` between the asset and the extra trees: the element and the entity afterwards. -/
def writeEnt (ov : Ov) (fmt : ℚ → Text) (now : DateTime) (elem : Text) (s : Ent) (mid : List Node) : Option (Node × Ent) :=
  (writeEntAsset ov fmt now s.asset).bind fun a => (writeTargetExtra s.target s.note s.extra).map fun x =>
    (.elem elem (entAttrs true s) [] (a.1 ++ mid ++ x.1), { s with asset := a.2, extra := x.2 })

/-- FAXSceneImport.cpp 64-68: a parameter with the note. -/
def isNote (x : FExtra.Node) : Bool := decide (x.children.length = 0) && (decide (x.name = text "user_properties") || decide (x.name = text "note"))

/-- FAXSceneImport.cpp 50-74: the notes of the technique of a profile, if there is one: the last is kept, all are released. -/
def takeFrom (p : Text) (s : List FExtra.Tech × Text) : List FExtra.Tech × Text :=
  match FExtra.findTechnique s.1 p with
  | none => s
  | some i =>
    (s.1.modify i fun t => { t with node := .mk t.node.name t.node.content t.node.attrs (t.node.children.filter fun x => !isNote x) },
      ((s.1[i]?).bind fun t => ((t.node.children.filter isNote).map (·.content)).getLast?).getD s.2)

/-- FAXSceneImport.cpp 49-74: the notes of the three profiles. -/
def takeNotes (s : List FExtra.Tech × Text) : List FExtra.Tech × Text := takeFrom (text "FCOLLADA") (takeFrom (text "MAX3D") (takeFrom (text "MAYA") s))

/-- FAXSceneImport.cpp 44-75: one `extra` element. -/
def loadEntExtra (s : FExtra.Extra × Text) (k : Node) : Option (FExtra.Extra × Text) :=
  (loadExtra s.1 k).bind fun e => (defaultTechs e).bind fun ts =>
    let r := takeNotes (ts, s.2)
    (onDefault (fun _ => r.1) e).map fun e => (e, r.2)

/-- FAXSceneImport.cpp 38-39: the asset. -/
def loadEntAsset (ov : Ov) (now : DateTime) (a : Option QAsset) (n : Node) : Option (Option QAsset) :=
  match n.child (text "asset") with
  | none => some a
  | some k => (loadAsset ov (a.getD (FEnt.newAsset now)) k).map some

/-- FAXSceneImport.cpp 34-35: the name that is set, with FCDEntity.cpp 67-97 (`SetName` and `CleanName`, which is the same as `CleanSubId`). -/
def givenName (id name : Text) : Option Text := (FLib.cleanSubId name).bind fun c => if c = [] then FLib.cleanSubId id else some c

/-- FAXSceneImport.cpp 24-78: `LoadEntity` into an entity. -/
def loadEnt (ov : Ov) (now : DateTime) (s : Ent) (n : Node) : Option Ent :=
  (prop (some n) (text "id")).bind fun id => (prop (some n) (text "name")).bind fun name => (givenName id name).bind fun name => (loadEntAsset ov now s.asset n).bind fun a =>
    ((n.children (text "extra")).foldlM loadEntExtra (s.extra, s.note)).map fun x =>
      { s with id := id, name := name, asset := a, extra := x.1, note := x.2 }

/-- FAXSceneImport.cpp 94-100: the target, if a technique of the default type has one, and the techniques without it. -/
def takeTarget (ts : List FExtra.Tech) : Option (Text × List FExtra.Tech) :=
  (FExtra.findRootNode ts (text "target")).bind fun p => (ts[p.1]?).bind fun t => (t.node.children[p.2]?).map fun x =>
    (x.content, ts.modify p.1 fun t => { t with node := .mk t.node.name t.node.content t.node.attrs (t.node.children.eraseIdx p.2) })

/-- FAXSceneImport.cpp 80-103: `LoadTargetedEntity`: the entity and the address of the target. -/
def loadTargeted (ov : Ov) (now : DateTime) (s : Ent) (n : Node) : Option (Ent × Text) :=
  (loadEnt ov now s n).bind fun s => (loadExtra s.extra n).bind fun e => (defaultTechs e).bind fun ts =>
    match takeTarget ts with
    | none => some ({ s with extra := e }, [])
    | some (t, ts) => (onDefault (fun _ => ts) e).map fun e => ({ s with extra := e }, t)

end Verif.FArc
