import Verif.Volume
import Verif.Bound

/-!
# Physics shapes, rigid bodies, models and scenes

FCDocument/FCDPhysicsShape.cpp, FCDPhysicsAnalyticalGeometry.cpp, FCDPhysicsMaterial.cpp, FCDPhysicsRigidBodyParameters.cpp, FCDPhysicsRigidBody.cpp,
FCDPhysicsRigidConstraint.cpp, FCDPhysicsModel.cpp, FCDPhysicsModelInstance.cpp, FCDPhysicsScene.cpp. Ids, names, notes and extra trees of the entities are
left out (`FCDEntity::Clone` is the subject of C28 and C94), and so are the animations of the parameters.
-/

namespace Verif.FPhys

open Verif.Geo (V3 Box)

/-! ## The volume of a mesh -/

section Mesh
variable {K : Type}

/-- A source of positions: FCDGeometrySource.h `GetStride`, `GetData`, `GetDataCount`. -/
structure PosSource (K : Type) where
  stride : Nat
  data : List K

/-- FCDGeometryMesh.h, FCDGeometryPolygons.h: a mesh. `hullOf` is `GetConvexHullOf`, `none` if it is empty; `sets` has for each set of polygons the source
that `FindInput(POSITION)` leads to, `none` if there is no such input. -/
structure Mesh (K : Type) where
  hullOf : Option Nat
  sets : List (Option (PosSource K))

/-- FCDPhysicsShape.cpp 219-223: the positions that are read; `none` if the last one goes beyond the data. -/
def readPoints : List K → Option (List (V3 K))
  | [] => some []
  | a :: b :: c :: l => (readPoints l).map (⟨a, b, c⟩ :: ·)
  | _ => none

variable [Field K] [LinearOrder K]

/-- FCDPhysicsShape.cpp 225-228: the volume added for one set of polygons. -/
def boxSize (b : Box K) : K := (b.max.x - b.min.x) * (b.max.y - b.min.y) * (b.max.z - b.min.z)

/-- FCDPhysicsShape.cpp 210-230: the loop over the sets of polygons. `boundary` is reset at the end of each turn; a stride other than 3 skips the rest of
the turn (216). A set without positions is a NULL that is dereferenced (214). -/
def setsVolume (big : K) : Box K → K → List (Option (PosSource K)) → Option K
  | _, acc, [] => some acc
  | _, _, none :: _ => none
  | boundary, acc, some s :: rest =>
    if s.stride = 3 then
      (readPoints s.data).bind fun ps => setsVolume big (Box.reset big) (acc + boxSize (ps.foldl Box.includePoint boundary)) rest
    else setsVolume big boundary acc rest

/-- A geometry of the library: a mesh, or something else. -/
abbrev Geometries (K : Type) := Nat → Option (Option (Mesh K))

omit [Field K] [LinearOrder K] in
/-- FCDGeometryMesh.cpp 65-77: `FindConvexHullOfMesh`; `n` bounds the number of turns, the outer `none` says that the loop has not ended. -/
def findHull (lib : Geometries K) : Nat → Option (Mesh K) → Option (Option (Mesh K))
  | _, none => some none
  | 0, some m => if m.hullOf = none then some (some m) else none
  | n + 1, some m =>
    match m.hullOf with
    | none => some (some m)
    | some id =>
      match lib id with
      | none => some none
      | some g => findHull lib n g

/-- FCDPhysicsShape.cpp 197-234: `CalculateVolume` of a shape that is a geometry instance; `g` is the instanced geometry, `none` if there is none. -/
def meshVolume (n : Nat) (big : K) (lib : Geometries K) (g : Option (Option (Mesh K))) : Option K :=
  match g with
  | none => none
  | some none => some 1
  | some (some m) =>
    match (if m.hullOf = none then some (some m) else findHull lib n (some m)) with
    | none => none
    | some none => some 1
    | some (some m) => setsVolume big (Box.reset big) 0 m.sets

end Mesh

/-! ## Copies -/

section Copies
variable {K : Type} [Zero K]

/-- FCDPhysicsMaterial.h: the members of a physics material. -/
structure Material (K : Type) where
  staticFriction : K
  dynamicFriction : K
  restitution : K
deriving DecidableEq

/-- FCDPhysicsMaterial.cpp 16-21: the constructor. -/
def Material.new : Material K := ⟨0, 0, 0⟩

omit [Zero K] in
/-- FCDPhysicsMaterial.cpp 28-43: `Clone` into `dst`. -/
def Material.cloneInto (src _dst : Material K) : Material K := ⟨src.staticFriction, src.dynamicFriction, src.restitution⟩

/-- FCDPhysicsAnalyticalGeometry.h: the types of analytical geometries. -/
inductive Kind where
  | box | plane | sphere | cylinder | capsule | taperedCylinder | taperedCapsule
deriving DecidableEq

omit [Zero K] in
/-- FCDPhysicsAnalyticalGeometry.h: `GetGeomType`. -/
def Anal.kind : Anal K → Kind
  | .box _ => .box
  | .plane _ _ => .plane
  | .sphere _ => .sphere
  | .cylinder _ _ => .cylinder
  | .capsule _ _ => .capsule
  | .taperedCylinder _ _ _ => .taperedCylinder
  | .taperedCapsule _ _ _ => .taperedCapsule

/-- FCDPhysicsAnalyticalGeometry.cpp 279-292, and the constructors 42-46, 74-77, 105-108, 136-141, 170-175, 204-208, 244-248: `CreatePAS`. -/
def createPAS : Kind → Anal K
  | .box => .box ⟨0, 0, 0⟩
  | .plane => .plane ⟨0, 0, 0⟩ 0
  | .sphere => .sphere 0
  | .cylinder => .cylinder ⟨0, 0⟩ 0
  | .capsule => .capsule ⟨0, 0⟩ 0
  | .taperedCylinder => .taperedCylinder ⟨0, 0⟩ ⟨0, 0⟩ 0
  | .taperedCapsule => .taperedCapsule ⟨0, 0⟩ ⟨0, 0⟩ 0

omit [Zero K] in
/-- FCDPhysicsAnalyticalGeometry.cpp 48-61, 79-92, 110-123, 143-157, 177-191, 210-223, 250-263: `Clone` of the first into the second. A tapered cylinder is
a cylinder too, and a tapered capsule a capsule; an object of another class is left as it is. `FCDPASPlane::Clone` copies the normal only. -/
def Anal.cloneInto : Anal K → Anal K → Anal K
  | .box h, .box _ => .box h
  | .plane n _, .plane _ d' => .plane n d'
  | .sphere r, .sphere _ => .sphere r
  | .cylinder r h, .cylinder _ _ => .cylinder r h
  | .cylinder r h, .taperedCylinder _ r2 _ => .taperedCylinder r r2 h
  | .capsule r h, .capsule _ _ => .capsule r h
  | .capsule r h, .taperedCapsule _ r2 _ => .taperedCapsule r r2 h
  | .taperedCylinder r r2 h, .taperedCylinder _ _ _ => .taperedCylinder r r2 h
  | .taperedCapsule r r2 h, .taperedCapsule _ _ _ => .taperedCapsule r r2 h
  | _, dst => dst

/-- FCDPhysicsShape.h 52-65: the members of a shape. A physics material is given by its values, and with `owns` by whether the shape owns it; `geometry` is the
entity that the geometry instance instantiates, and `instMat` that of the material instance (an instance can have no entity). `T` are the transforms. -/
structure Shape (K T : Type) where
  hollow : Bool
  material : Option (Material K)
  owns : Bool
  geometry : Option (Option Nat)
  anal : Option (Anal K)
  mass : Option K
  density : Option K
  transforms : List T
  instMat : Option (Option Nat)
  densityMoreAccurate : Bool

variable {T : Type}

omit [Zero K] in
/-- FCDPhysicsShape.cpp 27-38: the constructor. -/
def Shape.new : Shape K T := ⟨true, none, false, none, none, none, none, [], none, false⟩

/-- FCDPhysicsShape.cpp 119-159: `Clone` into `dst`. Line 131 clones the material instance into itself, not into the one of the clone; the transforms are
appended with their values (C88 has their clones). -/
def Shape.cloneInto (src dst : Shape K T) : Shape K T where
  hollow := src.hollow
  material := match src.material with | some m => some (m.cloneInto .new) | none => dst.material
  owns := if src.material.isSome then true else dst.owns
  geometry := match src.geometry with | some g => some g | none => dst.geometry
  anal := match src.anal with | some a => some (a.cloneInto (createPAS a.kind)) | none => dst.anal
  mass := match src.mass with | some m => some m | none => dst.mass
  density := match src.density with | some d => some d | none => dst.density
  transforms := dst.transforms ++ src.transforms
  instMat := if src.instMat.isSome then some none else dst.instMat
  densityMoreAccurate := dst.densityMoreAccurate

/-- FCDPhysicsShape.cpp 161-167: `GetMass`. -/
def Shape.getMass (s : Shape K T) : K := s.mass.getD 0

/-- The physics material of rigid body parameters: one of the document, an own one, or the own one of others. -/
inductive MatRef (K : Type) where
  | shared (id : Nat)
  | own (m : Material K)
  | borrowed (m : Material K)

/-- FCDPhysicsRigidBodyParameters.h 55-90: the members of the parameters. -/
structure Params (K T : Type) where
  dynamic : Bool
  mass : K
  density : K
  inertia : V3 K
  translate : V3 K
  axis : V3 K
  angle : K
  shapes : List (Shape K T)
  material : Option (MatRef K)
  instMat : Option (Option Nat)
  densityMoreAccurate : Bool
  inertiaAccurate : Bool

/-- FCDPhysicsRigidBodyParameters.cpp 26-58: the constructors. -/
def Params.new [One K] : Params K T := ⟨true, 1, 0, ⟨0, 0, 0⟩, ⟨0, 0, 0⟩, ⟨1, 0, 0⟩, 0, [], none, none, false, false⟩

/-- FCDPhysicsRigidBodyParameters.cpp 74-108: `CopyFrom`. `mats` gives the values of the materials of the document, `sameDoc` is `IsLocal`. The material instance
is a new one (`FCDEntityInstance::Clone`), with the same entity. -/
def Params.copyFrom (mats : Nat → Material K) (sameDoc : Bool) (dst src : Params K T) : Params K T where
  dynamic := src.dynamic
  mass := src.mass
  density := dst.density
  inertia := src.inertia
  translate := src.translate
  axis := src.axis
  angle := src.angle
  shapes := dst.shapes ++ src.shapes.map fun s => s.cloneInto .new
  material :=
    match src.material with
    | none => dst.material
    | some r =>
      match sameDoc, r with
      | true, .shared i => some (.shared i)
      | true, .own m => some (.borrowed m)
      | true, .borrowed m => some (.borrowed m)
      | false, .shared i => some (.own ((mats i).cloneInto .new))
      | false, .own m => some (.own (m.cloneInto .new))
      | false, .borrowed m => some (.own (m.cloneInto .new))
  instMat := match src.instMat with | some e => some e | none => dst.instMat
  densityMoreAccurate := dst.densityMoreAccurate
  inertiaAccurate := dst.inertiaAccurate

/-- FCDPhysicsRigidBody.cpp 32-45: `Clone` of a rigid body into a new one. -/
def cloneBody [One K] (mats : Nat → Material K) (sameDoc : Bool) (p : Params K T) : Params K T := Params.copyFrom mats sameDoc .new p

/-- FCDPhysicsRigidBodyInstance.cpp 66-83: `SetRigidBody` on the parameters of the instance; `SetInertia` sets the flag of the inertia too
(FCDPhysicsRigidBodyParameters.h 135-136), line 82 sets it again. -/
def Params.setRigidBody (p body : Params K T) : Params K T :=
  { p with
    dynamic := body.dynamic
    mass := body.mass
    translate := body.translate
    axis := body.axis
    angle := body.angle
    inertia := body.inertia
    density := body.density
    densityMoreAccurate := body.densityMoreAccurate
    inertiaAccurate := body.inertiaAccurate }

/-- FCDPhysicsRigidConstraint.h 49-77: the members of a constraint. Bodies and nodes are given by their numbers. -/
structure Constraint (K T : Type) where
  sid : List Int
  enabled : K
  interpenetrate : K
  refBody : Option Nat
  refNode : Option Nat
  tarBody : Option Nat
  tarNode : Option Nat
  linearMin : V3 K
  linearMax : V3 K
  sctMin : V3 K
  sctMax : V3 K
  linStiffness : K
  linDamping : K
  linTarget : K
  angStiffness : K
  angDamping : K
  angTarget : K
  transformsRef : List T
  transformsTar : List T

/-- FCDPhysicsRigidConstraint.cpp 25-41: the constructor. -/
def Constraint.new [One K] : Constraint K T :=
  ⟨[], 1, 0, none, none, none, none, ⟨0, 0, 0⟩, ⟨0, 0, 0⟩, ⟨0, 0, 0⟩, ⟨0, 0, 0⟩, 1, 0, 0, 1, 0, 0, [], []⟩

/-- FCDPhysicsRigidConstraint.cpp 76-116: `Clone` into `dst`. -/
def Constraint.cloneInto (src dst : Constraint K T) : Constraint K T where
  sid := dst.sid
  enabled := src.enabled
  interpenetrate := src.interpenetrate
  refBody := src.refBody
  refNode := src.refNode
  tarBody := src.tarBody
  tarNode := src.tarNode
  linearMin := src.linearMin
  linearMax := src.linearMax
  sctMin := src.sctMin
  sctMax := src.sctMax
  linStiffness := src.linStiffness
  linDamping := src.linDamping
  linTarget := src.linTarget
  angStiffness := src.angStiffness
  angDamping := src.angDamping
  angTarget := src.angTarget
  transformsRef := dst.transformsRef ++ src.transformsRef
  transformsTar := dst.transformsTar ++ src.transformsTar

/-- The instances in a physics model instance: FCDPhysicsModelInstance.cpp 40-62. A rigid body instance has its velocities and parameters. -/
inductive Inst (K T : Type) where
  | body (entity : Option Nat) (velocity angular : V3 K) (target : Option Nat) (p : Params K T)
  | constraint (entity : Option Nat)
  | force (entity : Option Nat)

/-- A physics model instance. -/
structure ModelInst (K T : Type) where
  entity : Option Nat
  insts : List (Inst K T)

/-- FCDPhysicsModelInstance.cpp 80-91 with FCDPhysicsRigidBodyInstance.cpp 47-64 and FCDPhysicsRigidConstraintInstance.cpp 35-49: the clone of one instance.
The clone of a force field instance is asked for without a force field (87): FCDEntityInstance.cpp 191 gives NULL, and FUObject.h 106, 306 dereferences it. -/
def cloneInst [One K] (mats : Nat → Material K) : Inst K T → Option (Inst K T)
  | .body e v a _ p => some (.body e v a none (Params.copyFrom mats true .new p))
  | .constraint e => some (.constraint e)
  | .force _ => none

/-- FCDPhysicsModelInstance.cpp 70-94: `Clone` into a new instance. -/
def cloneModelInst [One K] (mats : Nat → Material K) (m : ModelInst K T) : Option (ModelInst K T) := (m.insts.mapM (cloneInst mats)).map fun l => ⟨m.entity, l⟩

/-- A physics model: rigid bodies with their numbers, constraints, instances of other models. -/
structure Model (K T : Type) where
  bodies : List (Nat × Params K T)
  constraints : List (Constraint K T)
  instances : List (ModelInst K T)

/-- FCDPhysicsModel.cpp 52-84: `Clone` into a new model of the same document; `fresh` numbers the new bodies. -/
def cloneModel [One K] (mats : Nat → Material K) (fresh : Nat) (m : Model K T) : Option (Model K T) :=
  (m.instances.mapM (cloneModelInst mats)).map fun l =>
    ⟨m.bodies.zipIdx.map fun b => (fresh + b.2, cloneBody mats true b.1.2), m.constraints.map fun c => c.cloneInto .new, l⟩

/-- FCDPhysicsScene.h 49-52: a physics scene; the force field instances by their entities. -/
structure Scene (K T : Type) where
  gravity : V3 K
  timestep : K
  models : List (ModelInst K T)
  forces : List (Option Nat)

/-- FCDPhysicsScene.cpp 39-70: `Clone` into a new scene. `AddForceFieldInstance` without a force field (65) adds a NULL, as in `cloneInst`. -/
def cloneScene [One K] (mats : Nat → Material K) (s : Scene K T) : Option (Scene K T) :=
  (s.models.mapM (cloneModelInst mats)).bind fun l => if s.forces = [] then some ⟨s.gravity, s.timestep, l, []⟩ else none

end Copies

/-- FCDPhysicsRigidBody.cpp 47-56: `GetShapeMassFactor`; `none` is a division by zero. -/
def massFactor {K T : Type} [Field K] [DecidableEq K] (p : Params K T) : Option K :=
  let total := (p.shapes.map Shape.getMass).foldl (· + ·) 0
  if total = 0 then none else some (p.mass / total)

/-! ## The kind of a shape -/

section Geometry
variable {K T : Type}

/-- The calls that set the geometry of a shape. -/
inductive GeomOp (K : Type) where
  | createInstance (entity : Nat)
  | createAnalytical (k : Kind)
  | setAnalytical (a : Option (Anal K))
  | setInstance (g : Option (Option Nat))

/-- FCDPhysicsShape.cpp 82-115, FCDPhysicsShape.h 126, 142: `CreateGeometryInstance` (the convex hull is another new geometry), `CreateAnalyticalGeometry`,
`SetAnalyticalGeometry`, `SetGeometryInstance`. -/
def geomStep [Zero K] (s : Shape K T) : GeomOp K → Shape K T
  | .createInstance e => { s with anal := none, geometry := some (some e) }
  | .createAnalytical k => { s with geometry := none, anal := some (createPAS k) }
  | .setAnalytical a => { s with anal := a }
  | .setInstance g => { s with geometry := g }

end Geometry

/-! ## Who owns the physics materials

Shapes and rigid body parameters ("holders") have a tracked pointer to a physics material and a flag that says whether they own it. -/

/-- The members `physicsMaterial` and `ownsPhysicsMaterial`. -/
structure Holder where
  ptr : Option Nat
  owns : Bool
deriving DecidableEq

/-- The physics materials that are alive, those that have been released, and the holders. -/
structure Mats where
  alive : Nat → Bool
  freed : List Nat
  holders : Nat → Option Holder

/-- FUObjectType.h 102-103, FUTracker.h: the release of a material; the tracked pointers to it become NULL. `none` if it has been released before. -/
def releaseMat (w : Mats) (m : Nat) : Option Mats :=
  if w.alive m then
    some ⟨fun x => if x = m then false else w.alive x, w.freed ++ [m],
      fun h => (w.holders h).map fun k => if k.ptr = some m then { k with ptr := none } else k⟩
  else none

/-- FCDPhysicsShape.cpp 66, 76 and FCDPhysicsRigidBodyParameters.cpp 120-123, 138-141: the own material is released. -/
def dropOwn (w : Mats) (h : Nat) : Option Mats :=
  (w.holders h).bind fun k =>
    match k.owns, k.ptr with
    | true, some m => releaseMat w m
    | _, _ => some w

/-- The holder is changed. -/
def putHolder (w : Mats) (h : Nat) (k : Option Holder) : Mats := { w with holders := fun x => if x = h then k else w.holders x }

/-- The calls of a program. -/
inductive MatOp where
  | newMaterial (m : Nat)
  | freeMaterial (m : Nat)
  | newHolder (h : Nat)
  | addOwn (h m : Nat)
  | set (h : Nat) (m : Option Nat)
  | deleteHolder (h : Nat)

/-- FCDPhysicsShape.cpp 27-80, FCDPhysicsRigidBodyParameters.cpp 60-72, 118-128, 136-147: a new material of the document, its release, a new holder,
`AddOwnPhysicsMaterial` (`m` is the new material), `SetPhysicsMaterial`, the destructor. A tracked pointer that is given a released material is undefined. -/
def matStep (w : Mats) : MatOp → Option Mats
  | .newMaterial m => some { w with alive := fun x => if x = m then true else w.alive x }
  | .freeMaterial m => releaseMat w m
  | .newHolder h => some (putHolder w h (some ⟨none, false⟩))
  | .addOwn h m => (dropOwn w h).map fun w => putHolder { w with alive := fun x => if x = m then true else w.alive x } h (some ⟨some m, true⟩)
  | .set h p => (dropOwn w h).bind fun w =>
      match p with
      | none => some (putHolder w h (some ⟨none, false⟩))
      | some m => if w.alive m then some (putHolder w h (some ⟨some m, false⟩)) else none
  | .deleteHolder h => (dropOwn w h).map fun w => putHolder w h none

end Verif.FPhys
