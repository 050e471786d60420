import Verif.ArcDoc

/-!
# Model of the status of the loading of a document and of its cancelling (FColladaPlugins/FArchiveXML/FArchiveXML.cpp 551-803, 929-962, FAXImportLinking.cpp 90-113, 237-261, FCollada/FCollada.cpp 159-168)

What the entities of the libraries hold is modelled elsewhere (C142-C178): here an element of a library is the entity of a type `A` that it becomes, with the status of its loading. The document is new. The libraries are given
in the order in which they are loaded (`place` of `Verif/ArcDoc.lean`). The function of the user that tells whether to stop is asked many times: its answer to the question number `k` is `cancel k`.
-/

namespace Verif.FLoad

open Verif.FArc (Kind)

/-- A child of the element of a library: the entity that is loaded from it and the status of its loading, or nothing for texts, assets and extra trees. -/
abbrev Item (A : Type) := Option (A × Bool)

/-- The element of a library. `attach` is the status of `AttachModelInstancesFCDPhysicsModel` after a library of physics models (FArchiveXML.cpp 688-694), else `true`. -/
structure LibIn (A : Type) where
  kind : Kind
  items : List (Item A)
  attach : Bool := true

/-- FCDSceneNode.h: what the linking of a scene node sees: its instances, those of controllers, of emitters and others, and its children. -/
inductive Inst where
  | controller | emitter | other

/-- See `Inst`. -/
inductive SNode where
  | node (insts : List Inst) (kids : List SNode)

variable {A : Type}

/-- FArchiveXML.cpp 951-953: the entity of a child. -/
def entOf (kind : Kind) : Item A → List (Kind × A)
  | some x => [(kind, x.1)]
  | none => []

/-- FArchiveXML.cpp 953: the status of a child. -/
def okOf : Item A → Bool
  | some x => x.2
  | none => true

/-- FArchiveXML.cpp 929-962: `LoadLibrary`, when `k` questions have been asked: the status, the entities and the number of questions asked after it. -/
def loadLib (cancel : Nat → Bool) (kind : Kind) (k : Nat) : List (Item A) → Bool × List (Kind × A) × Nat
  | [] => (true, [], k)
  | x :: xs =>
    if cancel k then (false, entOf kind x, k + 1)
    else (okOf x && (loadLib cancel kind (k + 1) xs).1, entOf kind x ++ (loadLib cancel kind (k + 1) xs).2.1, (loadLib cancel kind (k + 1) xs).2.2)

/-- What the loading of the libraries leaves: `stopped` if line 668 returns. -/
structure Res (A : Type) where
  status : Bool
  loaded : List (Kind × A)
  stopped : Bool

/-- FArchiveXML.cpp 670-701: one library. -/
def loadOne (cancel : Nat → Bool) (k : Nat) (l : LibIn A) : Bool × List (Kind × A) × Nat :=
  if l.kind = .unknown then (true, [], k) else loadLib cancel l.kind k l.items

/-- FArchiveXML.cpp 664-702: the libraries. -/
def loadLibs (cancel : Nat → Bool) (k : Nat) : List (LibIn A) → Res A
  | [] => ⟨true, [], false⟩
  | l :: ls =>
    if cancel k then ⟨false, [], true⟩
    else ⟨(loadOne cancel (k + 1) l).1 && l.attach && (loadLibs cancel (loadOne cancel (k + 1) l).2.2 ls).status,
      (loadOne cancel (k + 1) l).2.1 ++ (loadLibs cancel (loadOne cancel (k + 1) l).2.2 ls).loaded, (loadLibs cancel (loadOne cancel (k + 1) l).2.2 ls).stopped⟩

/-- FAXInstanceImport.cpp 379-434: the status of `LinkControllerInstance` and of `LinkEmitterInstance`; others are skipped (FAXImportLinking.cpp 244-251). -/
def linkInst : Inst → Bool
  | .controller => true
  | .emitter => true
  | .other => true

mutual
/-- FAXImportLinking.cpp 237-261: `LinkSceneNode`. -/
def linkScene : SNode → Bool
  | .node insts kids => insts.all linkInst && linkScenes kids
/-- FAXImportLinking.cpp 254-258: the loop over the children. -/
def linkScenes : List SNode → Bool
  | [] => true
  | n :: ns => linkScene n && linkScenes ns
end

/-- What the linking depends on: the status of `LinkController` (C154), the nodes of a visual scene, the number of drivers that `LinkAnimation` reports (C158), and whether errors are fatal. -/
structure Links (A : Type) where
  controller : A → Bool
  scene : A → SNode
  drivers : A → Nat
  fatal : Bool := true

/-- FAXImportLinking.cpp 90-113: the status of `LinkAnimation`: it is that of `FUError::Error` for each report, which tells whether an error is fatal (FUError.cpp 44). -/
def linkAnim (w : Links A) (a : A) : Bool := (List.replicate (w.drivers a) w.fatal).all id

/-- The entities of a library. -/
def entsOf (loaded : List (Kind × A)) (kind : Kind) : List A := (loaded.filter fun x => decide (x.1 = kind)).map (·.2)

/-- FArchiveXML.cpp 739-790: the status after the linking. The links of materials, effects and meshes have no status, and that of targets is always `true` (FAXImportLinking.cpp 208-235). -/
def linkStatus (w : Links A) (loaded : List (Kind × A)) (status : Bool) : Bool :=
  (entsOf loaded .animation).foldl (fun s a => s && linkAnim w a)
    ((entsOf loaded .visualScene).foldl (fun s a => s || linkScene (w.scene a)) ((entsOf loaded .controller).foldl (fun s a => s || w.controller a) status))

/-- The file: whether its root is named as it must be, the status of its assets, and its libraries. -/
structure FileIn (A : Type) where
  root : Bool := true
  assets : List Bool := []
  libs : List (LibIn A)

/-- What `Import` leaves: the status, the entities of the document, and the number of documents that are being loaded. -/
structure Done (A : Type) where
  status : Bool
  loaded : List (Kind × A)
  count : Nat

/-- FArchiveXML.cpp 551-803: `Import`, while `count` documents are being loaded. -/
def importFile (w : Links A) (cancel : Nat → Bool) (count : Nat) (f : FileIn A) : Done A :=
  if f.root = false then ⟨false, [], count + 1⟩
  else if (loadLibs cancel 0 f.libs).stopped then ⟨false, (loadLibs cancel 0 f.libs).loaded, count + 1⟩
  else ⟨linkStatus w (loadLibs cancel 0 f.libs).loaded (f.assets.all id && (loadLibs cancel 0 f.libs).status), (loadLibs cancel 0 f.libs).loaded, count + 1 - 1⟩

end Verif.FLoad
