import Verif.ArcExtra
import Verif.Path

/-!
# Model of the libraries of a document in a file (FArchiveXML/FArchiveXML.cpp 546-1082)

Entities and assets are kept as the elements that are written for them; extra trees are those of `Verif/ArcExtra.lean`. Transient objects and the cancelling of loading are left out. `none` is undefined behaviour.
-/

namespace Verif.FArc

open Verif.FEff (Text text)
open Verif.FConv (Ov)

/-- FArchiveXML.cpp 547: `nodeOrder`. -/
inductive Kind where
  | animation | clip | image | effect | material | geometry | controller | camera | light | forceField | emitter | visualScene | physicsMaterial | physicsModel | physicsScene | unknown
deriving DecidableEq

/-- FArchiveXML.cpp 547: the values. -/
def Kind.rank : Kind → Nat
  | .animation => 0 | .clip => 1 | .image => 2 | .effect => 3 | .material => 4 | .geometry => 5 | .controller => 6 | .camera => 7 | .light => 8 | .forceField => 9 | .emitter => 10
  | .visualScene => 11 | .physicsMaterial => 12 | .physicsModel => 13 | .physicsScene => 14 | .unknown => 15

/-- FCDLibrary.h 50-58: a library: its asset, if it has one, its entities and its extra tree. -/
structure Lib where
  asset : Option Node := none
  ents : List Node := []
  extra : FExtra.Extra := FExtra.newExtra

/-- FCDocument.h: the parts of a document: its asset, its libraries, the addresses of the instances of physics scenes and of the visual scene, and its extra tree. -/
structure DocParts where
  asset : Node
  libs : Kind → Lib
  physics : List FUri.Uri := []
  scene : Option FUri.Uri := none
  extra : FExtra.Extra := FExtra.newExtra

/-! ## Saving -/

/-- FArchiveXML.cpp 1065-1082: `WriteLibrary`: the children. -/
def writeLib (l : Lib) : List Node := l.asset.toList ++ l.ents ++ writeExtra l.extra

/-- FArchiveXML.cpp 842-844: `EXPORT_LIBRARY`. -/
def exportLib (d : DocParts) (x : Kind × Text) : List Node :=
  if (d.libs x.1).ents ≠ [] ∨ FExtra.hasContent (d.libs x.1).extra = true then [.elem x.2 [] [] (writeLib (d.libs x.1))] else []

/-- FArchiveXML.cpp 846-858: the libraries in the order of the file, with their names (FUDaeSyntax.h 27-41). -/
def exported : List (Kind × Text) :=
  [(.clip, text "library_animation_clips"), (.physicsMaterial, text "library_physics_materials"), (.forceField, text "library_force_fields"), (.physicsModel, text "library_physics_models"),
    (.physicsScene, text "library_physics_scenes"), (.camera, text "library_cameras"), (.light, text "library_lights"), (.image, text "library_images"), (.material, text "library_materials"),
    (.effect, text "library_effects"), (.geometry, text "library_geometries"), (.controller, text "library_controllers"), (.visualScene, text "library_visual_scenes")]

/-- FArchiveXML.cpp 822-827, 901-906: the library of animations. -/
def exportAnimations (d : DocParts) : List Node :=
  if (d.libs .animation).ents ≠ [] then [.elem (text "library_animations") [] [] (writeLib (d.libs .animation))] else []

/-- The addresses as they are written. -/
def cleanUris (ov : Ov) (stack : List FUri.Uri) : List FUri.Uri → Option (List Text)
  | [] => some []
  | u :: us => (FPath.cleanUri ov stack false u).bind fun t => (cleanUris ov stack us).map (t :: ·)

/-- FArchiveXML.cpp 862-884: the `scene` element. -/
def sceneElem (physics scene : List Text) : List Node :=
  if physics = [] ∧ scene = [] then []
  else [.elem (text "scene") [] [] ((physics.map fun t => .elem (text "instance_physics_scene") [(text "url", t)] [] []) ++
    scene.map fun t => .elem (text "instance_visual_scene") [(text "url", t)] [] [])]

/-- FArchiveXML.cpp 886-899: the `extra` element with the library of emitters. -/
def exportEmitters (d : DocParts) : List Node :=
  if (d.libs .emitter).ents ≠ [] then
    [.elem (text "extra") [(text "type", text "libraries")] [] [.elem (text "technique") [(text "profile", text "FCOLLADA")] []
      [.elem (text "library_emitters") [] [] (writeLib (d.libs .emitter))]]]
  else []

/-- FArchiveXML.cpp 805-915: `ExportDocument`. -/
def exportDoc (ov : Ov) (stack : List FUri.Uri) (d : DocParts) : Option Node :=
  (cleanUris ov stack d.physics).bind fun ps => (cleanUris ov stack d.scene.toList).map fun ss =>
    .elem (text "COLLADA") [(text "xmlns", text "http://www.collada.org/2005/11/COLLADASchema"), (text "version", text "1.4.1")] []
      (d.asset :: exportAnimations d ++ exported.flatMap (exportLib d) ++ sceneElem ps ss ++ exportEmitters d ++ writeExtra d.extra)

/-! ## Loading -/

/-- FArchiveXML.cpp 581-595: the names of the libraries in the order in which they are tried (FUDaeSyntax.h 27-41). -/
def libNames : List (Text × Kind) :=
  [(text "library_animations", .animation), (text "library_animation_clips", .clip), (text "library_cameras", .camera), (text "library_controllers", .controller),
    (text "library_effects", .effect), (text "library_geometries", .geometry), (text "library_images", .image), (text "library_lights", .light), (text "library_materials", .material),
    (text "library_visual_scenes", .visualScene), (text "library_force_fields", .forceField), (text "library_nodes", .visualScene), (text "library_physics_materials", .physicsMaterial),
    (text "library_physics_models", .physicsModel), (text "library_physics_scenes", .physicsScene)]

/-- FArchiveXML.cpp 581-595: the kind of library of an element. -/
def libKind (n : Text) : Option Kind := libNames.lookup n

/-- FArchiveXML.cpp 618-623, 648-653: an element is put before the first of a later kind. -/
def place (x : Kind × Node) : List (Kind × Node) → List (Kind × Node)
  | [] => [x]
  | y :: ys => if x.1.rank < y.1.rank then x :: y :: ys else y :: place x ys

/-- FArchiveXML.cpp 569-571: what is gathered from the elements. -/
structure Gathered where
  assets : List Node := []
  order : List (Kind × Node) := []
  scene : Option Node := none
  extras : List Node := []

/-- FArchiveXML.cpp 572-624: one element of the file. -/
def gather (g : Gathered) (k : Node) : Gathered := match libKind k.name with
  | some kind => { g with order := place (kind, k) g.order }
  | none =>
    if k.name = text "asset" then { g with assets := g.assets ++ [k] }
    else if k.name = text "scene" then { g with scene := some k }
    else if k.name = text "extra" then { g with extras := g.extras ++ [k], order := place (.unknown, k) g.order }
    else g

/-- FArchiveXML.cpp 632-654: the libraries of emitters in an extra element. -/
def emitterLibs (n : Node) : List Node := (n.children (text "technique")).flatMap fun t => t.kids.filter fun k => decide (k.name = text "library_emitters")

/-- FArchiveXML.cpp 627-662: one of the `extra` elements. -/
def gatherExtra (g : List (Kind × Node) × FExtra.Extra) (n : Node) : Option (List (Kind × Node) × FExtra.Extra) :=
  (prop (some n) (text "type")).bind fun t =>
    if t = text "libraries" then some ((emitterLibs n).foldl (fun l k => place (.emitter, k) l) g.1, g.2)
    else (loadExtra g.2 n).map fun e => (g.1, e)

/-- What is loaded: the assets of the document, the entities in the order in which they are loaded, the assets and extra trees of the libraries, the addresses of the instances, and the extra tree of the
document. -/
structure DocLoaded where
  assets : List Node := []
  ents : List (Kind × Node) := []
  libAssets : List (Kind × Node) := []
  libExtra : Kind → FExtra.Extra := fun _ => FExtra.newExtra
  physics : List FUri.Uri := []
  scene : Option FUri.Uri := none
  extra : FExtra.Extra := FExtra.newExtra

/-- FArchiveXML.cpp 934-956: an element of a library. -/
def loadMember (kind : Kind) (r : DocLoaded) (k : Node) : Option DocLoaded :=
  if k.name = text "asset" then some { r with libAssets := r.libAssets ++ [(kind, k)] }
  else if k.name = text "extra" then (loadExtra (r.libExtra kind) k).map fun e => { r with libExtra := fun x => if x = kind then e else r.libExtra x }
  else some { r with ents := r.ents ++ [(kind, k)] }

/-- FArchiveXML.cpp 664-702, 928-962: one library. -/
def loadOne (r : DocLoaded) (x : Kind × Node) : Option DocLoaded := if x.1 = .unknown then some r else x.2.kids.foldlM (loadMember x.1) r

/-- FArchiveXML.cpp 708-735: an element of the scene. `oneVisualSceneInstanceFound` is never set. -/
def loadInstance (ov : Ov) (r : DocLoaded) (k : Node) : Option DocLoaded :=
  if k.name = text "instance_visual_scene" ∨ k.name = text "instance_physics_scene" then
    (prop (some k) (text "url")).bind fun t => (FUri.parse ov t).map fun u =>
      if u.fragment = [] then r else if k.name = text "instance_visual_scene" then { r with scene := some u } else { r with physics := r.physics ++ [u] }
  else some r

/-- FArchiveXML.cpp 704-737: the scene, if there is one. -/
def loadSceneElem (ov : Ov) (r : DocLoaded) (s : Option Node) : Option DocLoaded := match s with
  | none => some r
  | some n => n.kids.foldlM (loadInstance ov) r

/-- FArchiveXML.cpp 551-737: `Import` up to the linking, from an element with the right name. -/
def importDoc (ov : Ov) (n : Node) : Option DocLoaded :=
  let g := n.kids.foldl gather {}
  (g.extras.foldlM gatherExtra (g.order, FExtra.newExtra)).bind fun o => (o.1.foldlM loadOne { assets := g.assets, extra := o.2 }).bind fun r => loadSceneElem ov r g.scene

end Verif.FArc
