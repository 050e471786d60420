import Verif.Builder

/-!
# Model of the material instances and of the clones of instances (FCDocument/FCDGeometryInstance.cpp, FCDMaterialInstance.cpp, FCDControllerInstance.cpp, FCDEntityInstance.cpp)

Entities and scene nodes are known by numbers, texts are texts without a zero character. The effect parameters of an instance are opaque values: the model takes the clone of a parameter into a new
parameter of its type to be equal to it. The flags of changed objects are left out. `none` is undefined behaviour.
-/

namespace Verif.FMat

open Verif.FStr (Ch)

abbrev Text := List Ch

/-- FCDMaterialInstance.h 42-58: a binding of a semantic to a target. -/
structure Bind where
  semantic : Text
  target : Text
deriving DecidableEq

/-- FCDMaterialInstance.h 68-95: a binding of a semantic to a vertex input. -/
structure VBind where
  semantic : Text
  input : Nat
  set : Int
deriving DecidableEq

/-- FCDEntityInstance.h 49-81: the fields of every instance. The extra tree is a number, `none` when it was never asked for. The reference to the entity is the entity it finds (C95). -/
structure Base where
  parent : Option Nat
  entity : Option Nat
  name : Text
  subId : Text
  extra : Option Nat
deriving DecidableEq

/-- FCDMaterialInstance.h 104-112: a material instance. -/
structure Mat where
  base : Base
  semantic : Text
  binds : List Bind
  vbinds : List VBind
deriving DecidableEq

/-- FCDGeometryPolygons.h 94-99: what the instances use of a set of polygons. -/
structure PSet where
  semantic : Text
  offset : Nat
deriving DecidableEq

/-- FCDEntityInstance.cpp 31-41: a new instance. -/
def newBase (parent : Option Nat) : Base := ⟨parent, none, [], [], none⟩

/-- FCDEntityInstance.cpp 58-61, FCDEntityReference.cpp 88-107: `SetEntity`. A null entity leaves the id of the reference, so the next `GetEntity` finds the
entity again (C95); the model takes that entity to be alive and in the document. -/
def setEntity (b : Base) (e : Option Nat) : Base := { b with entity := e.or b.entity }

/-- FCDMaterialInstance.cpp 73-79: a new material instance of an instance whose scene node is `parent`. -/
def newMat (parent : Option Nat) : Mat := ⟨newBase parent, [], [], []⟩

/-- FCDGeometryInstance.cpp 59-66: `FindMaterialInstance`, the position of the instance. -/
def findMaterial : List Mat → Text → Option Nat
  | [], _ => none
  | m :: ms, s => if m.semantic = s then some 0 else (findMaterial ms s).map (· + 1)

/-- FCDGeometryInstance.cpp 99-105: `AddMaterialInstance(material, semantic)`. -/
def addNamed (parent : Option Nat) (ms : List Mat) (material : Option Nat) (semantic : Text) : List Mat :=
  ms ++ [{ newMat parent with base := setEntity (newBase parent) material, semantic := semantic }]

/-- FCDGeometryInstance.cpp 90: the generated semantic. FUStringConversion.h 386 uses `FUStringBuilder::append(uint64)`, which keeps 32 bits of the face offset (C10). -/
def generated (id : Text) (offset : Nat) : Text := id ++ FBld.decimal (offset % 2 ^ 32)

/-- FCDGeometryInstance.cpp 76-96: `AddMaterialInstance(material, polygons)` for the polygons at a position of the mesh (`none`: a null pointer). `ids` gives the ids of the materials. -/
def addBound (ids : Nat → Text) (parent : Option Nat) (ms : List Mat) (sets : List PSet) (material : Option Nat) (k : Option Nat) : Option (List Mat × List PSet) :=
  match k with
  | none => some (addNamed parent ms material [], sets)
  | some k =>
    match sets[k]? with
    | none => none
    | some p =>
      if p.semantic ≠ [] then some (addNamed parent ms material p.semantic, sets)
      else
        match material with
        | none => none
        | some e => some (addNamed parent ms material (generated (ids e) p.offset), sets.set k { p with semantic := generated (ids e) p.offset })

/-- What `GetGeometryTarget` asks of an entity. -/
inductive Entity where
  | mesh (sets : List PSet)
  | geometry
  | controller (base : Option Entity)
  | other

/-- FCDMaterialInstance.cpp 102-109: the first polygons with the semantic. -/
def findSet : List PSet → Text → Option Nat
  | [], _ => none
  | p :: ps, s => if p.semantic = s then some 0 else (findSet ps s).map (· + 1)

/-- FCDMaterialInstance.cpp 95-113: the rest of `GetGeometryTarget` once the entity is known. -/
def targetIn (e : Entity) (s : Text) : Option Nat :=
  match e with
  | .mesh sets => findSet sets s
  | _ => none

/-- FCDMaterialInstance.cpp 86-114: `GetGeometryTarget`. A controller stands for its base geometry; a controller without one is a null pointer that is then used. -/
def geometryTarget (e : Option Entity) (s : Text) : Option (Option Nat) :=
  match e with
  | none => some none
  | some (.controller none) => none
  | some (.controller (some g)) => some (targetIn g s)
  | some e => some (targetIn e s)

/-- FCDMaterialInstance.cpp 117-124: `FindBinding`. -/
def findBind : List Bind → Text → Option Bind
  | [], _ => none
  | b :: bs, s => if b.semantic = s then some b else findBind bs s

/-- FCDMaterialInstance.cpp 143-150: `FindVertexInputBinding`. -/
def findVBind : List VBind → Text → Option VBind
  | [], _ => none
  | b :: bs, s => if b.semantic = s then some b else findVBind bs s

/-- FCDMaterialInstance.cpp 160-166: `AddBinding`. -/
def addBind (m : Mat) (s t : Text) : Mat := { m with binds := m.binds ++ [⟨s, t⟩] }

/-- FCDMaterialInstance.cpp 134-141: `AddVertexInputBinding`. -/
def addVBind (m : Mat) (s : Text) (i : Nat) (k : Int) : Mat := { m with vbinds := m.vbinds ++ [⟨s, i, k⟩] }

/-- FCDMaterialInstance.cpp 168-172: `RemoveBinding`. -/
def removeBind (m : Mat) (i : Nat) : Mat := if i < m.binds.length then { m with binds := m.binds.eraseIdx i } else m

/-- FCDMaterialInstance.cpp 152-158, FCDGeometryInstance.cpp 68-74: the calls a material instance goes through. -/
inductive MatOp where
  | bind (s t : Text)
  | vbind (s : Text) (i : Nat) (k : Int)
  | unbind (i : Nat)

def MatOp.run (m : Mat) : MatOp → Mat
  | .bind s t => addBind m s t
  | .vbind s i k => addVBind m s i k
  | .unbind i => removeBind m i

/-- The instances that may be cloned: FCDEntityInstance, FCDGeometryInstance, FCDControllerInstance, FCDMaterialInstance. The last carries the instance that holds it. -/
inductive Inst where
  | plain (b : Base)
  | geom (b : Base) (params : List Nat) (mats : List Mat)
  | ctrl (b : Base) (params : List Nat) (mats : List Mat) (roots : List Text) (joints : List (Option Nat))
  | mat (m : Mat)

def Inst.base : Inst → Base
  | .plain b => b
  | .geom b _ _ => b
  | .ctrl b _ _ _ _ => b
  | .mat m => m.base

def Inst.setBase (i : Inst) (b : Base) : Inst :=
  match i with
  | .plain _ => .plain b
  | .geom _ p m => .geom b p m
  | .ctrl _ p m r j => .ctrl b p m r j
  | .mat m => .mat { m with base := b }

/-- FCDEntityInstance.cpp 152: what the clone of an entity instance writes into an instance. -/
def cloneBase (src : Base) (dst : Inst) : Inst := dst.setBase (setEntity dst.base src.entity)

/-- FCDMaterialInstance.cpp 181-197: a material instance copied into another. -/
def cloneMatInto (src dst : Mat) : Mat :=
  { base := setEntity dst.base src.base.entity, semantic := src.semantic, binds := dst.binds ++ src.binds, vbinds := dst.vbinds ++ src.vbinds }

/-- FCDGeometryInstance.cpp 114-128: the parameters and material instances copied into a geometry instance whose scene node is `parent`. -/
def cloneMats (parent : Option Nat) (src : List Mat) : List Mat := src.map fun m => cloneMatInto m (newMat parent)

/-- FCDGeometryInstance.cpp 107-131: `Clone` of a geometry instance into an instance. -/
def cloneGeom (b : Base) (params : List Nat) (mats : List Mat) (dst : Inst) : Inst :=
  match dst with
  | .geom d p m => .geom (setEntity d b.entity) (p ++ params) (m ++ cloneMats d.parent mats)
  | .ctrl d p m r j => .ctrl (setEntity d b.entity) (p ++ params) (m ++ cloneMats d.parent mats) r j
  | dst => cloneBase b dst

/-- FCDControllerInstance.cpp 41-48: the roots and joints, when the clone is a controller instance. -/
def setJoints (roots : List Text) (joints : List (Option Nat)) (dst : Inst) : Inst :=
  match dst with
  | .ctrl b p m _ _ => .ctrl b p m roots joints
  | dst => dst

/-- FCDEntityInstance.cpp 145-154, FCDGeometryInstance.cpp 107-131, FCDControllerInstance.cpp 33-50, FCDMaterialInstance.cpp 174-198: `Clone` into an instance. -/
def cloneInto (src dst : Inst) : Inst :=
  match src with
  | .plain b => cloneBase b dst
  | .geom b p m => cloneGeom b p m dst
  | .ctrl b p m r j => setJoints r j (cloneGeom b p m dst)
  | .mat s =>
    match dst with
    | .mat d => .mat (cloneMatInto s d)
    | dst => cloneBase s.base dst

/-- FCDEntityInstance.cpp 147-150, FCDGeometryInstance.cpp 110, FCDControllerInstance.cpp 36, FCDMaterialInstance.cpp 177 and 74: the instance made for a null clone. The constructor of a material instance
asks its null parent for the scene node. -/
def blank : Inst → Option Inst
  | .plain b => some (.plain (newBase b.parent))
  | .geom b _ _ => some (.geom (newBase b.parent) [] [])
  | .ctrl _ _ _ _ _ => some (.ctrl (newBase none) [] [] [] [])
  | .mat _ => none

/-- `Clone(dst)`, where `none` is the null pointer. -/
def clone (src : Inst) (dst : Option Inst) : Option Inst :=
  match dst with
  | none => (blank src).map (cloneInto src)
  | some d => some (cloneInto src d)

end Verif.FMat
