import Mathlib.Data.List.Basic
import Mathlib.Logic.Function.Basic

/-!
# Model of controllers (FCDocument/FCDController.cpp, FCDSkinController.cpp, FCDMorphController.cpp, FCDControllerInstance.cpp)

The entities of one document are numbered; a number stands for an address and for the identifier, which is unique in the document (C28) and is not used
again. The target of a skin is an `FCDEntityReference` (EntityRef.lean, C95): `SetEntity(NULL)` leaves the identifier in it, and the next `GetEntity` finds the
entity again; so it changes nothing that can be observed while the entity is alive, and only the identifier is kept here. Dirty flags, weights and joints are not
part of this model. `none` is undefined behaviour (the use of something that does not exist) or more steps than allowed.
-/

namespace Verif.FCtrl

/-- FCDGeometry.h: a mesh with the number of its positions (`none` if it has no source of positions), a spline with the number of its control vertices
(`GetTotalCVCount`), or neither. -/
inductive Geom where
  | mesh (positions : Option Nat)
  | spline (vertices : Nat)
  | neither
deriving DecidableEq

/-- FCDMorphController.h 49-50: a morph target: its identity and its geometry. -/
structure Target where
  name : Nat
  geometry : Option Nat
deriving DecidableEq

/-- FCDController.h 45-46, FCDSkinController.h, FCDMorphController.h 126-127: a controller has a skin, with its target and the number of influences, or a morpher,
with its base target and its morph targets, or neither. -/
inductive Ctrl where
  | empty
  | skin (target : Option Nat) (influences : Nat)
  | morph (base : Option Nat) (targets : List Target)
deriving DecidableEq

/-- An entity of the document. -/
inductive Ent where
  | geom (g : Geom)
  | ctrl (c : Ctrl)
  | other
deriving DecidableEq

/-- The entities that exist. -/
abbrev World := Nat → Option Ent

/-- Stores an entity. -/
def put (w : World) (x : Nat) (e : Ent) : World := Function.update w x (some e)

/-- FCDController.cpp 59-70: `GetBaseTarget` of the controller `c`. -/
def baseTarget (w : World) (c : Nat) : Option Nat :=
  match w c with
  | some (.ctrl (.skin t _)) => t
  | some (.ctrl (.morph b _)) => b
  | _ => none

/-- FCDController.cpp 76-86: the loop of `GetBaseGeometry` and what follows. -/
def follow (w : World) : Nat → Option Nat → Option (Option Nat)
  | _, none => some none
  | 0, some _ => none
  | n + 1, some x =>
    match w x with
    | none => none
    | some (.ctrl _) => follow w n (baseTarget w x)
    | some (.geom _) => some (some x)
    | some .other => some none

/-- FCDController.cpp 73-86: `GetBaseGeometry`; the outer `none` says that the loop has not ended. -/
def baseGeometry (w : World) (n : Nat) (c : Nat) : Option (Option Nat) := follow w n (baseTarget w c)

/-- FCDController.cpp 93-105: the loop of `GetBaseGeometryController` and what follows. -/
def followController (w : World) : Nat → Nat → Option Nat → Option (Option Nat)
  | _, _, none => some none
  | 0, _, some _ => none
  | n + 1, parent, some x =>
    match w x with
    | none => none
    | some (.ctrl _) => followController w n x (baseTarget w x)
    | some (.geom _) => some (some parent)
    | some .other => some none

/-- FCDController.cpp 89-106: `GetBaseGeometryController`. -/
def baseGeometryController (w : World) (n : Nat) (c : Nat) : Option (Option Nat) := followController w n c (baseTarget w c)

/-- FCDControllerInstance.cpp 116-129: `FindSkin`: the controller that has the skin. -/
def findSkin (w : World) : Nat → Option Nat → Option (Option Nat)
  | _, none => some none
  | 0, some _ => none
  | n + 1, some x =>
    match w x with
    | none => none
    | some (.ctrl (.skin _ _)) => some (some x)
    | some (.ctrl _) => findSkin w n (baseTarget w x)
    | some _ => some none

/-- FCDSkinController.cpp 87-101: the number of vertices of a geometry. -/
def vertexCount : Option Ent → Nat
  | some (.geom (.mesh p)) => p.getD 0
  | some (.geom (.spline n)) => n
  | _ => 0

/-- FCDSkinController.cpp 66-115: `SetTarget`. The actual base entity (72-82) is found by the same loop. Lines 103-114 set the number of influences to that of the
vertices in all cases. -/
def setTarget (n : Nat) (w : World) (c : Nat) (e : Option Nat) : Option World :=
  match w c with
  | some (.ctrl (.skin _ _)) =>
    (follow w n e).map fun r =>
      match r with
      | none => w
      | some g => put w c (.ctrl (.skin e (vertexCount (w g))))
  | _ => none

/-- FCDMorphController.cpp 112-134, 143-162: the comparison of two geometries. -/
def similarGeom : Option Ent → Option Ent → Bool
  | some (.geom (.mesh p)), some (.geom (.mesh (some k))) => p.getD 0 = k
  | some (.geom (.spline a)), some (.geom (.spline b)) => a = b
  | _, _ => false

/-- FCDMorphController.cpp 100-166: `IsSimilar` of a morpher with the base target `b`. -/
def isSimilar (n : Nat) (w : World) (b e : Option Nat) : Option Bool :=
  match b, e with
  | some b, some e => (follow w n (some b)).bind fun x => (follow w n (some e)).map fun y => similarGeom (x.bind w) (y.bind w)
  | _, _ => some false

/-- FCDMorphController.cpp 62-72: the loop that releases morph targets. -/
def keepSimilar (n : Nat) (w : World) (b : Option Nat) : List Target → Option (List Target)
  | [] => some []
  | t :: ts => (isSimilar n w b t.geometry).bind fun s => (keepSimilar n w b ts).map fun l => if s then t :: l else l

/-- FCDMorphController.cpp 47-81: `SetBaseTarget`. -/
def setBaseTarget (n : Nat) (w : World) (c : Nat) (e : Option Nat) : Option World :=
  match w c with
  | some (.ctrl (.morph _ ts)) =>
    let w1 := put w c (.ctrl (.morph none ts))
    (follow w1 n e).bind fun r =>
      match r with
      | none => some (put w c (.ctrl (.morph none [])))
      | some _ => (keepSimilar n (put w c (.ctrl (.morph e ts))) e ts).map fun l => put w c (.ctrl (.morph e l))
  | _ => none

/-- FCDMorphController.cpp 84-97: `AddTarget`; `t` is the identity of the new target. Lines 91-94: `SetGeometry` of a target without geometry (187-202). -/
def addTarget (n : Nat) (w : World) (c t : Nat) (g : Option Nat) : Option (Bool × World) :=
  match w c with
  | some (.ctrl (.morph b ts)) =>
    if b = none then some (true, put w c (.ctrl (.morph b (ts ++ [⟨t, g⟩]))))
    else (isSimilar n w b g).map fun s => if s then (true, put w c (.ctrl (.morph b (ts ++ [⟨t, g⟩])))) else (false, w)
  | _ => none

/-- What the release of the entity `x` does to the pointers of another entity. -/
def forget (x : Nat) : Ent → Ent
  | .ctrl (.skin t k) => .ctrl (.skin (if t = some x then none else t) k)
  | .ctrl (.morph b ts) =>
    .ctrl (.morph (if b = some x then none else b) (ts.map fun t => if t.geometry = some x then { t with geometry := none } else t))
  | e => e

/-- The release of an entity: tracked pointers and references to it become null (C31, C95). -/
def release (w : World) (x : Nat) : Option World :=
  (w x).map fun _ => fun y => if y = x then none else (w y).map (forget x)

/-- The geometry of the target `t` of the controller `c` is stored. -/
def putGeometry (w : World) (c t : Nat) (g : Option Nat) : World :=
  match w c with
  | some (.ctrl (.morph b ts)) => put w c (.ctrl (.morph b (ts.map fun x => if x.name = t then { x with geometry := g } else x)))
  | _ => w

/-- FCDMorphController.cpp 189-194: the old geometry is released if nothing else tracks it. -/
def dropGeometry (w : World) (sole : Bool) (old : Option Nat) : Option World :=
  match sole, old with
  | true, some o => release w o
  | _, _ => some w

/-- FCDMorphController.cpp 197-200. -/
def assignGeometry (n : Nat) (w : World) (c t : Nat) (b g : Option Nat) : Option World :=
  if b = none then (if g.all (fun x => (w x).isSome) then some (putGeometry w c t g) else none)
  else (isSimilar n w b g).map fun s => if s then putGeometry w c t g else w

/-- FCDMorphController.cpp 187-202: `SetGeometry` of the target `t` of the controller `c`; `sole` says whether the target is the only tracker of its geometry. A
tracked pointer that is given a released object is undefined. -/
def setGeometry (n : Nat) (w : World) (c t : Nat) (sole : Bool) (g : Option Nat) : Option World :=
  match w c with
  | some (.ctrl (.morph _ ts)) =>
    (ts.find? fun x => x.name = t).bind fun x => (dropGeometry w sole x.geometry).bind fun w1 =>
      match w1 c with
      | some (.ctrl (.morph b _)) => assignGeometry n w1 c t b g
      | _ => none
  | _ => none

/-- What the user can call. -/
inductive Op where
  | newGeometry (x : Nat) (g : Geom)
  | newController (x : Nat)
  | newOther (x : Nat)
  | createSkin (c : Nat)
  | createMorph (c : Nat)
  | setTarget (c : Nat) (e : Option Nat)
  | setBaseTarget (c : Nat) (e : Option Nat)
  | addTarget (c t : Nat) (g : Option Nat)
  | setGeometry (c t : Nat) (sole : Bool) (g : Option Nat)
  | edit (x : Nat) (g : Geom)
  | release (x : Nat)

/-- The call; `createSkin` and `createMorph` are FCDController.cpp 42-57, `edit` is any change of a geometry. -/
def run (n : Nat) (w : World) : Op → Option World
  | .newGeometry x g => if w x = none then some (put w x (.geom g)) else none
  | .newController x => if w x = none then some (put w x (.ctrl .empty)) else none
  | .newOther x => if w x = none then some (put w x .other) else none
  | .createSkin c => match w c with
    | some (.ctrl _) => some (put w c (.ctrl (.skin none 0)))
    | _ => none
  | .createMorph c => match w c with
    | some (.ctrl _) => some (put w c (.ctrl (.morph none [])))
    | _ => none
  | .setTarget c e => setTarget n w c e
  | .setBaseTarget c e => setBaseTarget n w c e
  | .addTarget c t g => (addTarget n w c t g).map Prod.snd
  | .setGeometry c t sole g => setGeometry n w c t sole g
  | .edit x g => match w x with
    | some (.geom _) => some (put w x (.geom g))
    | _ => none
  | .release x => release w x

end Verif.FCtrl
