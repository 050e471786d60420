import Verif.ArcDoc
import Verif.ArcExtraSpec
import Verif.ArcSceneSpec

/-! # Specification of the libraries of a document in a file -/

namespace Verif.FArc

open Verif.FEff (Text text)
open Verif.FConv (Ov)

/-- The elements of a file whose members are entities of a kind, in the order of the file; the names are those of the COLLADA schema. Libraries of emitters are in the extra elements for libraries. -/
def libElems (n : Node) (k : Kind) : List Node := match k with
  | .animation => n.children (text "library_animations")
  | .clip => n.children (text "library_animation_clips")
  | .image => n.children (text "library_images")
  | .effect => n.children (text "library_effects")
  | .material => n.children (text "library_materials")
  | .geometry => n.children (text "library_geometries")
  | .controller => n.children (text "library_controllers")
  | .camera => n.children (text "library_cameras")
  | .light => n.children (text "library_lights")
  | .forceField => n.children (text "library_force_fields")
  | .visualScene => n.kids.filter fun x => decide (x.name = text "library_visual_scenes") || decide (x.name = text "library_nodes")
  | .physicsMaterial => n.children (text "library_physics_materials")
  | .physicsModel => n.children (text "library_physics_models")
  | .physicsScene => n.children (text "library_physics_scenes")
  | .emitter => ((n.children (text "extra")).filter fun x => decide (prop (some x) (text "type") = some (text "libraries"))).flatMap fun x =>
      (x.children (text "technique")).flatMap fun t => t.children (text "library_emitters")
  | .unknown => []

/-- The entities among the elements of a library. -/
def members (n : Node) : List Node := n.kids.filter fun k => decide (k.name ≠ text "asset") && decide (k.name ≠ text "extra")

/-- The entities of a kind that were loaded, in order. -/
def DocLoaded.of (r : DocLoaded) (k : Kind) : List Node := (r.ents.filter fun x => decide (x.1 = k)).map (·.2)

/-- The assets of the library of a kind. -/
def DocLoaded.assetsOf (r : DocLoaded) (k : Kind) : List Node := (r.libAssets.filter fun x => decide (x.1 = k)).map (·.2)

/-- A document fit for a file: the elements of entities are not called as those of assets and extra trees, extra trees can be saved, no extra of the document has the type that is used for libraries, and the
instances are in the same file. -/
structure GoodDoc (ov : Ov) (d : DocParts) : Prop where
  asset : d.asset.name = text "asset"
  libAsset : ∀ k a, (d.libs k).asset = some a → a.name = text "asset"
  ents : ∀ k, ∀ n ∈ (d.libs k).ents, n.name ≠ text "asset" ∧ n.name ≠ text "extra"
  libExtra : ∀ k, (d.libs k).extra = FExtra.newExtra ∨ Saveable (d.libs k).extra ∧ FExtra.hasContent (d.libs k).extra = true
  extra : d.extra = FExtra.newExtra ∨ Saveable d.extra ∧ FExtra.hasContent d.extra = true
  noLibraries : ∀ t ∈ d.extra, t.name ≠ text "libraries"
  links : ∀ u ∈ d.physics ++ d.scene.toList, ∃ t, FUri.parse ov (35 :: t) = some u ∧ t ≠ [] ∧ GoodLink t
  unused : (d.libs .unknown).ents = []

/-- The libraries that are written: those with entities, and those with an extra tree other than those of animations and emitters. -/
def DocParts.kept (d : DocParts) (k : Kind) : Prop := (d.libs k).ents ≠ [] ∨ (k ≠ .animation ∧ k ≠ .emitter ∧ k ≠ .unknown ∧ FExtra.hasContent (d.libs k).extra = true)

/-- The kinds of entities, each after those that its entities can refer to. -/
def kindsInOrder : List Kind := [.animation, .clip, .image, .effect, .material, .geometry, .controller, .camera, .light, .forceField, .emitter, .visualScene, .physicsMaterial, .physicsModel, .physicsScene]

end Verif.FArc
