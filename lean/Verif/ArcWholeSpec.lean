import Verif.ArcWhole
import Verif.ArcBodySpec
import Verif.ArcLightSpec
import Verif.ArcImgSpec

/-! # Specification of whole documents in files -/

namespace Verif.FArc

open Verif.FEff (Text text)
open Verif.FConv (Ov DateTime shown)

/-- An entity that can be saved and has the extra type without a name first, as every new one has. -/
def GoodMember (ov : Ov) (rnd : ℚ → ℚ) (e : Ent) : Prop := GoodEnt ov rnd e ∧ ∃ ts es, e.extra = ⟨[], ts⟩ :: es

/-- The entity as it is read back; see C145. -/
def entBack (ov : Ov) (rnd : ℚ → ℚ) (now : DateTime) (e : Ent) : Ent := entAfter ov rnd now e (match e.extra with | [] => [] | t :: es => extraAfter e t.techs es)

/-- The light as it is read back has the technique of the library; see C152. -/
def entBackLit (ov : Ov) (rnd : ℚ → ℚ) (now : DateTime) (e : Ent) : Ent := entAfter ov rnd now e (match e.extra with | [] => [] | t :: es => ⟨[], withTech t.techs⟩ :: es)

/-- The entity after saving; see C145. -/
def entSaved (now : DateTime) (e : Ent) : Ent :=
  { e with
    asset := e.asset.map fun a => { a with modified := now }
    extra := match e.extra with | [] => [] | t :: es => if e.note = [] ∧ e.target = [] then t :: es else ⟨[], withoutTech t.techs⟩ :: es }

/-- The entity of a light after saving; see C152. -/
def entSavedLit (now : DateTime) (e : Ent) : Ent :=
  { e with
    asset := e.asset.map fun a => { a with modified := now }
    extra := match e.extra with | [] => [] | t :: es => ⟨[], withoutTech t.techs⟩ :: es }

/-- A camera that can be saved; see C151. -/
def GoodCam (ov : Ov) (rnd : ℚ → ℚ) (c : Cam) : Prop :=
  GoodMember ov rnd c.ent ∧ (c.view.hasX = true → c.view.hasY = true → shown rnd c.view.y = 0 → |shown rnd c.view.x| < tolerance)

/-- A light that can be saved; see C152. -/
def GoodLight (ov : Ov) (rnd : ℚ → ℚ) (l : Light) : Prop := GoodMember ov rnd l.ent ∧ ∀ t es, l.ent.extra = t :: es → NoLightParams t.techs

/-- The camera as it is read back, with the address of its target. -/
def camBack (ov : Ov) (rnd : ℚ → ℚ) (now : DateTime) (c : Cam) : Cam × Text :=
  ({ ent := entBack ov rnd now c.ent, ortho := c.ortho, view := viewAfter rnd c.view, near := shown rnd c.near, far := shown rnd c.far }, addressOf c.ent.target)

/-- The light as it is read back, with the address of its target. -/
def lightBack (ov : Ov) (rnd : ℚ → ℚ) (now : DateTime) (l : Light) : Light × Text := (lightAfter rnd l (entBackLit ov rnd now l.ent), addressOf l.ent.target)

/-- The image as it is read back. -/
def imgBack (ov : Ov) (rnd : ℚ → ℚ) (now : DateTime) (i : Img) : Img := { i with ent := entBack ov rnd now i.ent }

/-- The material as it is read back. -/
def mtlBack (ov : Ov) (rnd : ℚ → ℚ) (now : DateTime) (m : Mtl) : Mtl :=
  { m with ent := entBack ov rnd now m.ent, params := (m.params.filter fun q => decide (q.role ≠ .generator)).map (parmAfter rnd) }

/-- The physics material as it is read back. -/
def pmatBack (ov : Ov) (rnd : ℚ → ℚ) (now : DateTime) (m : PMat) : PMat := ⟨entBack ov rnd now m.ent, shown rnd m.staticFriction, shown rnd m.dynamicFriction, shown rnd m.restitution⟩

/-- The physics scene as it is read back. -/
def psceneBack (ov : Ov) (rnd : ℚ → ℚ) (now : DateTime) (s : PScene) : PScene := ⟨entBack ov rnd now s.ent, shownVec rnd s.gravity, shown rnd s.step⟩

/-- A library that is in the file: it has entities or an extra tree. -/
def TLib.kept {α : Type} (l : TLib α) : Prop := l.ents ≠ [] ∨ FExtra.hasContent l.extra = true

instance {α : Type} (l : TLib α) : Decidable l.kept := decidable_of_iff (l.ents.isEmpty = false ∨ FExtra.hasContent l.extra = true) (by unfold TLib.kept; cases l.ents <;> simp)

/-- The library as it is read back, each entity by `f`: a new one if it is not in the file. -/
def TLib.back {α β : Type} (ov : Ov) (rnd : ℚ → ℚ) (now : DateTime) (f : α → β) (l : TLib α) : TLib β :=
  if l.kept then ⟨l.asset.map (assetAfter ov rnd now), l.ents.map f, l.extra⟩ else {}

/-- The library after saving, each entity by `f`. -/
def TLib.saved {α : Type} (now : DateTime) (f : α → α) (l : TLib α) : TLib α :=
  if l.kept then ⟨l.asset.map fun a => { a with modified := now }, l.ents.map f, l.extra⟩ else l

/-- A library that can be saved. -/
structure TLib.Good {α : Type} (ov : Ov) (rnd : ℚ → ℚ) (P : α → Prop) (l : TLib α) : Prop where
  asset : ∀ a, l.asset = some a → GoodAsset ov rnd a
  ents : ∀ x ∈ l.ents, P x
  extra : l.extra = FExtra.newExtra ∨ Saveable l.extra ∧ FExtra.hasContent l.extra = true

/-- The kinds with a typed library. -/
def typedKind (k : Kind) : Bool := match k with
  | .camera | .light | .image | .material | .physicsMaterial | .physicsScene => true
  | _ => false

/-- One of the other libraries as it is read back: it is in the file if it has entities, and if it has an extra tree unless it is of animations or emitters. -/
def otherBack (d : TDoc Cam Light) (k : Kind) : Lib :=
  if typedKind k then {}
  else if (d.others k).ents = [] ∧ (k = .animation ∨ k = .emitter ∨ k = .unknown ∨ FExtra.hasContent (d.others k).extra = false) then {} else d.others k

/-- A document that can be saved in the folder `/D.../`. -/
structure GoodTDoc (ov : Ov) (rnd : ℚ → ℚ) (D : List Text) (d : TDoc Cam Light) : Prop where
  asset : GoodAsset ov rnd d.asset
  cameras : d.cameras.Good ov rnd (GoodCam ov rnd)
  lights : d.lights.Good ov rnd (GoodLight ov rnd)
  images : d.images.Good ov rnd fun i => GoodMember ov rnd i.ent ∧ i.ent.target = [] ∧ GoodImg D i
  materials : d.materials.Good ov rnd fun m => GoodMember ov rnd m.ent ∧ m.ent.target = [] ∧ GoodMtl (effectIds (d.others .effect).ents) m
  physicsMaterials : d.physicsMaterials.Good ov rnd fun m => GoodMember ov rnd m.ent ∧ m.ent.target = []
  physicsScenes : d.physicsScenes.Good ov rnd fun s => GoodMember ov rnd s.ent ∧ s.ent.target = []
  libAsset : ∀ k a, (d.others k).asset = some a → a.name = text "asset"
  ents : ∀ k, ∀ n ∈ (d.others k).ents, n.name ≠ text "asset" ∧ n.name ≠ text "extra"
  libExtra : ∀ k, (d.others k).extra = FExtra.newExtra ∨ Saveable (d.others k).extra ∧ FExtra.hasContent (d.others k).extra = true
  extra : d.extra = FExtra.newExtra ∨ Saveable d.extra ∧ FExtra.hasContent d.extra = true
  noLibraries : ∀ t ∈ d.extra, t.name ≠ text "libraries"
  links : ∀ u ∈ d.physics ++ d.scene.toList, ∃ t, FUri.parse ov (35 :: t) = some u ∧ t ≠ [] ∧ GoodLink t
  unused : (d.others .unknown).ents = []

/-- The document as it is read back. -/
def docBack (ov : Ov) (rnd : ℚ → ℚ) (now : DateTime) (d : TDoc Cam Light) : TDoc (Cam × Text) (Light × Text) where
  asset := assetAfter ov rnd now d.asset
  cameras := d.cameras.back ov rnd now (camBack ov rnd now)
  lights := d.lights.back ov rnd now (lightBack ov rnd now)
  images := d.images.back ov rnd now (imgBack ov rnd now)
  materials := d.materials.back ov rnd now (mtlBack ov rnd now)
  physicsMaterials := d.physicsMaterials.back ov rnd now (pmatBack ov rnd now)
  physicsScenes := d.physicsScenes.back ov rnd now (psceneBack ov rnd now)
  others := otherBack d
  physics := d.physics
  scene := d.scene
  extra := d.extra

/-- The document after saving: only times of modification and empty techniques of the library change. -/
def docSaved (now : DateTime) (d : TDoc Cam Light) : TDoc Cam Light where
  asset := { d.asset with modified := now }
  cameras := d.cameras.saved now fun c => { c with ent := entSaved now c.ent }
  lights := d.lights.saved now fun l => { l with ent := entSavedLit now l.ent }
  images := d.images.saved now fun i => { i with ent := entSaved now i.ent }
  materials := d.materials.saved now fun m => { m with ent := entSaved now m.ent }
  physicsMaterials := d.physicsMaterials.saved now fun m => { m with ent := entSaved now m.ent }
  physicsScenes := d.physicsScenes.saved now fun s => { s with ent := entSaved now s.ent }
  others := d.others
  physics := d.physics
  scene := d.scene
  extra := d.extra

end Verif.FArc
