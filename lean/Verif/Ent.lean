import Mathlib.Algebra.Order.Field.Basic
import Verif.Effect

/-!
# Model of assets, entities, targets and cameras (FCDAsset.cpp, FCDEntity.cpp, FCDTargetedEntity.cpp, FCDCamera.cpp, FCDLight.cpp, FCDImage.cpp, FCDEmitter.cpp, FCDForceField.cpp)

A date and time is of any type `D`, a node of an extra tree `E` (the copy of extra trees is C94), the fields of a camera `C` and of a light `L`. The id of an entity is that of C69. The flags of changed objects are left out.
-/

namespace Verif.FEnt

open Verif.FEff (Text text)

variable {D E C L K : Type}

/-- FCDAsset.h 250-254: a contributor. -/
structure Contributor where
  author : Text := []
  tool : Text := []
  comments : Text := []
  copyright : Text := []
  source : Text := []
deriving DecidableEq

/-- FCDAsset.cpp 98-109: `Clone` of a contributor into a given one. -/
def Contributor.cloneInto (s _d : Contributor) : Contributor := ⟨s.author, s.tool, s.comments, s.copyright, s.source⟩

/-- FCDAsset.cpp 112-115: `IsEmpty`. -/
def Contributor.isEmpty (c : Contributor) : Bool := c.author.isEmpty && c.tool.isEmpty && c.comments.isEmpty && c.copyright.isEmpty && c.source.isEmpty

/-- FCDAsset.h 53-64, 70, 75: an asset; the two flags tell whether an up-axis and a unit are set. -/
structure Asset (D K : Type) where
  created : D
  modified : D
  contributors : List Contributor := []
  keywords : Text := []
  revision : Text := []
  subject : Text := []
  title : Text := []
  upAxis : K × K × K
  unitName : Text
  unitFactor : K
  hasUpAxis : Bool := false
  hasUnits : Bool := false
deriving DecidableEq

/-- FCDAsset.cpp 22-35: a new asset, made at `now`. -/
def newAsset [Zero K] [One K] (now : D) : Asset D K := { created := now, modified := now, upAxis := (0, 1, 0), unitName := text "meter", unitFactor := 1 }

/-- FCDAsset.cpp 49-75: `Clone` into a given asset at the time `now`; `SetFlag` adds the flags that the original has (FUParameterizable.h 86, 91). -/
def Asset.cloneInto (a c : Asset D K) (now : D) (all : Bool) : Asset D K :=
  { created := a.created, modified := now, keywords := a.keywords, revision := a.revision, subject := a.subject, title := a.title
    upAxis := a.upAxis, unitName := a.unitName, unitFactor := a.unitFactor
    hasUpAxis := c.hasUpAxis || a.hasUpAxis, hasUnits := c.hasUnits || a.hasUnits
    contributors := if all then c.contributors ++ a.contributors.map fun x => x.cloneInto {} else c.contributors }

/-- FCDAsset.cpp 49-75: `Clone(NULL)`. -/
def Asset.clone [Zero K] [One K] (a : Asset D K) (now : D) (all : Bool) : Asset D K := a.cloneInto (newAsset now) now all

/-- FCDAsset.h 176: `SetUpAxis`. -/
def Asset.setUpAxis (a : Asset D K) (v : K × K × K) : Asset D K := { a with upAxis := v, hasUpAxis := true }

/-- FCDAsset.h 197: `SetUnitConversionFactor`. -/
def Asset.setFactor (a : Asset D K) (f : K) : Asset D K := { a with unitFactor := f, hasUnits := true }

/-- The classes of entities that have no `Clone` of their own but that of their base, or a short one; a target is the number of a scene node. -/
inductive Body (E C L : Type) where
  | entity
  | targeted (target : Option Nat)
  | camera (target : Option Nat) (c : C)
  | light (target : Option Nat) (l : L)
  | image (filename : Text) (width height depth : Nat) (video : Bool)
  | emitter
  | force (info : E)
deriving DecidableEq

/-- FCDEntity.h 86-89: an entity. -/
structure Entity (D K E C L : Type) where
  name : Text := []
  note : Text := []
  extra : E
  asset : Option (Asset D K) := none
  body : Body E C L

/-- The entity that `Clone(NULL)` makes: FCDEntity.cpp 52-55, FCDTargetedEntity.cpp 58-61 (also for cameras and lights, which do not override it), FCDImage.cpp 55, FCDEmitter.cpp 34, FCDForceField.cpp 49. -/
def fresh (e0 : E) : Body E C L → Body E C L
  | .entity => .entity
  | .targeted _ => .targeted none
  | .camera _ _ => .targeted none
  | .light _ _ => .targeted none
  | .image _ _ _ _ _ => .image [] 0 0 0 false
  | .emitter => .emitter
  | .force _ => .force e0

/-- FCDTargetedEntity.cpp 66-71: the target is copied when the clone is a targeted entity, of any class derived from it. -/
def setTarget (t : Option Nat) : Body E C L → Body E C L
  | .targeted _ => .targeted t
  | .camera _ c => .camera t c
  | .light _ l => .light t l
  | b => b

/-- What the `Clone` of each class copies into `d`: FCDTargetedEntity.cpp 56-74, FCDImage.cpp 52-69, FCDEmitter.cpp 31-43, FCDForceField.cpp 46-61. -/
def Body.cloneInto : Body E C L → Body E C L → Body E C L
  | .targeted t, d => setTarget t d
  | .camera t _, d => setTarget t d
  | .light t _, d => setTarget t d
  | .image f w h z v, .image _ _ _ _ _ => .image f w h z v
  | .force i, .force _ => .force i
  | _, d => d

/-- FCDEntity.cpp 50-65: `Clone` into a given entity: name, note and extra tree. -/
def Entity.cloneInto (s d : Entity D K E C L) : Entity D K E C L :=
  { d with name := s.name, note := s.note, extra := s.extra, body := s.body.cloneInto d.body }

/-- FCDEntity.cpp 50-65 and the like: `Clone(NULL)`; `e0` is a new extra tree. -/
def Entity.clone (e0 : E) (s : Entity D K E C L) : Entity D K E C L := s.cloneInto { extra := e0, body := fresh e0 s.body }

/-- FCDEntity.cpp 104-108: `GetHierarchicalAssets`: the asset that holds for the entity. -/
def Entity.holds (doc : Asset D K) (s : Entity D K E C L) : Asset D K := s.asset.getD doc

/-! ## Targets -/

/-- Live scene nodes with their target counts (FCDSceneNode.h 70), and live targeted entities with their targets. -/
structure Targets where
  count : Nat → Option Nat
  target : Nat → Option (Option Nat)

/-- The operations on targets. -/
inductive TOp where
  | newNode (n : Nat)
  | newEntity (e : Nat)
  | setTarget (e : Nat) (n : Option Nat)
  | clone (e e' : Nat)
  | releaseNode (n : Nat)
  | releaseEntity (e : Nat)

/-- FCDSceneNode.h 291, 295: `IncrementTargetCount`, `DecrementTargetCount` of a node that may be NULL (FCDTargetedEntity.cpp 42, 49). -/
def bump (f : Nat → Nat) (n : Option Nat) (count : Nat → Option Nat) : Nat → Option Nat := fun m => if some m = n then (count m).map f else count m

/-- FCDTargetedEntity.cpp 39-54: `SetTargetNode`. The counts are unbounded here (32 bits in C++). -/
def setTargetNode (s : Targets) (e : Nat) (old n : Option Nat) : Targets :=
  { count := bump (· + 1) n (bump (· - 1) old s.count), target := fun x => if x = e then some n else s.target x }

/-- The operations: FCDSceneNode.cpp 52, FCDTargetedEntity.cpp 28-36, 39-54, 56-74; when a node is released the tracked pointers to it become NULL (FUTracker.h 161-165), and the destructor of an entity does nothing (34-36). -/
def tstep (s : Targets) : TOp → Targets
  | .newNode n => { s with count := fun x => if x = n then some 0 else s.count x }
  | .newEntity e => { s with target := fun x => if x = e then some none else s.target x }
  | .setTarget e n => match s.target e with
    | some old => setTargetNode s e old n
    | none => s
  | .clone e e' => match s.target e with
    | some t => setTargetNode s e' none t
    | none => s
  | .releaseNode n => { count := fun x => if x = n then none else s.count x, target := fun e => (s.target e).map fun t => if t = some n then none else t }
  | .releaseEntity e => { s with target := fun x => if x = e then none else s.target x }

/-! ## Cameras -/

section camera
variable [Field K] [LinearOrder K]

/-- FMFloat.h 29: `IsEquivalent(v, 0)`, with the tolerance `eps`. -/
def nearZero (eps v : K) : Bool := decide (v < eps) && decide (-v < eps)

/-- FCDCamera.h 69-71, 76-77: the views and the aspect ratio of a camera. -/
structure View (K : Type) where
  x : K
  y : K
  aspect : K
  hasX : Bool
  hasY : Bool
deriving DecidableEq

/-- FCDCamera.cpp 24-35: a new camera. -/
def newView : View K := ⟨60, 60, 1, false, false⟩

/-- FCDCamera.cpp 44, 52: the aspect ratio; `none` when the vertical view is zero. -/
def ratio (eps : K) (other : Bool) (v : View K) : Option (View K) :=
  if other && !nearZero eps v.x then (if v.y = 0 then none else some { v with aspect := v.x / v.y }) else some v

/-- The setters of the views. -/
inductive COp (K : Type) where
  | fovX (x : K)
  | fovY (y : K)
  | aspect (a : K)

/-- FCDCamera.cpp 41-47: `SetFovX`; 49-55: `SetFovY`; 57-61: `SetAspectRatio`. -/
def View.set (eps : K) (v : View K) : COp K → Option (View K)
  | .fovX x => (ratio eps v.hasY { v with x := x }).map fun w => { w with hasX := true }
  | .fovY y => (ratio eps v.hasX { v with y := y }).map fun w => { w with hasY := true }
  | .aspect a => some { v with aspect := a }

end camera

end Verif.FEnt
